import Verif.Model.Startup
/-!
C80: the controller comes up.
-/
namespace Verif.Startup

/-- C80, full statement: no schedule uses the pointer before its construction or as a null pointer; from every point the constructor can
still return; and when it has, the event loop has its timer and its channel. -/
def C80_statement : Prop :=
  ∀ l, (boot l {}).ub = false ∧ (∃ m, (boot m (boot l {})).pc = .done) ∧
    ((boot l {}).pc = .done → (boot l {}).reactor = .set ∧ (boot l {}).timer = true ∧ (boot l {}).channel = true)

/-- The thread stores the reactor in a pointer that has not been constructed. -/
theorem C80_violated : ¬ C80_statement := by
  intro h
  have := (h [true, false]).1
  revert this
  decide

/-- Even if that did no harm: the constructor then sets the pointer to null and dereferences it. -/
theorem C80_null (b : Boot) (h : b.pc = .reactor) (hw : b.wc = .enter ∨ b.wc = .loop) (l : List Bool) (hd : (boot l b).pc = .done) :
    (boot l b).ub = true := by
  have key : ∀ (l : List Bool) (b : Boot), (b.wc = .enter ∨ b.wc = .loop) →
      (b.pc = .reactor ∨ ((b.pc = .wait ∨ b.pc = .register) ∧ b.reactor = .null) ∨ (b.pc = .done ∧ b.ub = true)) →
      (((boot l b).pc = .reactor ∨ (((boot l b).pc = .wait ∨ (boot l b).pc = .register) ∧ (boot l b).reactor = .null) ∨
        ((boot l b).pc = .done ∧ (boot l b).ub = true))) := by
    intro l
    induction l with
    | nil => exact fun b _ h => h
    | cons x l ih =>
      intro b hw h
      have hw' : (if x then stepC b else stepW b).wc = .enter ∨ (if x then stepC b else stepW b).wc = .loop := by
        obtain ⟨pc, wc, running, reactor, timer, channel, ub⟩ := b
        cases x <;> cases pc <;> cases wc <;> cases running <;> simp_all [stepC, stepW]
      refine ih _ hw' ?_
      obtain ⟨pc, wc, running, reactor, timer, channel, ub⟩ := b
      cases x <;> cases pc <;> cases wc <;> cases running <;> cases reactor <;> simp_all [stepC, stepW]
  rcases key l b hw (Or.inl h) with h1 | ⟨h1 | h1, _⟩ | ⟨_, h1⟩
  · rw [hd] at h1; cases h1
  · rw [hd] at h1; cases h1
  · rw [hd] at h1; cases h1
  · exact h1

/-- The states reached when the new thread gets its turn only after the members have been initialised. -/
def states : List Boot :=
  [⟨.wait, .assign, false, .null, false, false, false⟩, ⟨.wait, .timer, false, .set, false, false, false⟩,
   ⟨.wait, .flag, false, .set, true, false, false⟩, ⟨.wait, .enter, true, .set, true, false, false⟩,
   ⟨.wait, .loop, true, .set, true, false, false⟩, ⟨.register, .enter, true, .set, true, false, false⟩,
   ⟨.register, .loop, true, .set, true, false, false⟩, ⟨.done, .enter, true, .set, true, true, false⟩,
   ⟨.done, .loop, true, .set, true, true, false⟩]

theorem states_boot (l : List Bool) (b : Boot) (h : b ∈ states) : boot l b ∈ states := by
  have closed : ∀ b ∈ states, stepC b ∈ states ∧ stepW b ∈ states := by decide +kernel
  induction l generalizing b with
  | nil => exact h
  | cons x l ih =>
    refine ih _ ?_
    cases x
    · exact (closed b h).2
    · exact (closed b h).1

/-- C80, proved part: every schedule in which the new thread gets its turn only after the members have been initialised. Missing: all
other schedules. -/
theorem C80_partial (l : List Bool) :
    (boot l (boot [true, true] {})).ub = false ∧ (∃ m, (boot m (boot l (boot [true, true] {}))).pc = .done) ∧
      ((boot l (boot [true, true] {})).pc = .done → (boot l (boot [true, true] {})).reactor = .set ∧
        (boot l (boot [true, true] {})).timer = true ∧ (boot l (boot [true, true] {})).channel = true) := by
  have h := states_boot l (boot [true, true] {}) (by decide +kernel)
  generalize boot l (boot [true, true] {}) = b at h
  have all : ∀ b ∈ states, b.ub = false ∧ (boot [false, false, false, true, true] b).pc = .done ∧
      (b.pc = .done → b.reactor = .set ∧ b.timer = true ∧ b.channel = true) := by decide +kernel
  obtain ⟨h1, h2, h3⟩ := all b h
  exact ⟨h1, ⟨_, h2⟩, h3⟩

example : (boot [true, true, false, true, false, false, true, true, false] {}).pc = .done := by decide
example : (boot [true, false, false, false] {}).pc = .reactor ∧ (boot [true, false, false, false] {}).wc = .enter := by decide

end Verif.Startup
