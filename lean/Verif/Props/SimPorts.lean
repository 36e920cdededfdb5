import Verif.Model.SimPorts

/-
C156: the simulator leaves the ports that it sends to to the receiver.
-/
namespace Verif.SimPorts

namespace Spec

/-- What is to be seen: receivers come up, and packets go to the receiver that listens at their port, and to nobody if there is none. The first
argument is the list of ports of the receiver that runs. -/
def expected : List Nat → List Event → List Seen
  | _, [] => []
  | open', .send p :: l => .sent p (if p ∈ open' then .receiver else .nobody) :: expected open' l
  | _, .start ports :: l => .started true :: expected ports l
  | _, .stop :: l => .stopped :: expected [] l

end Spec

open Spec

/-- C156: for every history in which the receiver does not use the port that the operating system gives to the simulator. -/
def C156_statement : Prop := ∀ m events, (∀ e ∈ events, ∀ ports, e = .start ports → m.ephemeral ∉ ports) → (∀ e ∈ events, e ≠ .send m.ephemeral) →
  run m start events = expected [] events

/-- A simulator that is started first takes the port, is sent its own packets, and the receiver does not come up. -/
theorem C156_violated : ¬ C156_statement := by
  intro h
  have := h ⟨true, 40000⟩ [.send 61649, .start [61649], .send 61649] (by
    intro e he ports hp
    subst hp
    simp only [List.mem_cons, reduceCtorEq, Event.start.injEq, List.not_mem_nil, or_false, false_or] at he
    subst he
    decide) (by decide)
  exact absurd this (by decide)

/-- So it does for every port and every receiver that uses it, whatever happens between. -/
theorem C156_taken (m : Machine) (hm : m.localAddress = true) (p : Nat) (ports : List Nat) (hp : p ∈ ports) (l : List Event) :
    ∃ rest, run m start (.send p :: .start ports :: l) = .sent p .simulator :: .started false :: rest := by
  have e1 : step m start (.send p) = (⟨some p, []⟩, .sent p .simulator) := by
    simp [step, send, bindTo, hm, start, inUse, auto, owner]
  have e2 : step m ⟨some p, []⟩ (.start ports) = (⟨some p, []⟩, .started false) := by
    simp [step, startReceiver, hp]
  exact ⟨_, by simp only [run, e1, e2]; rfl⟩

/-! ### What holds -/

/-- Once the simulator has the port that the operating system chose, everything is as expected. -/
theorem run_bound (m : Machine) (r : List Nat) (l : List Event) (h1 : ∀ e ∈ l, ∀ ports, e = .start ports → m.ephemeral ∉ ports)
    (h2 : ∀ e ∈ l, e ≠ .send m.ephemeral) : run m ⟨some m.ephemeral, r⟩ l = expected r l := by
  induction l generalizing r with
  | nil => rfl
  | cons e l ih =>
    have h1' : ∀ e ∈ l, ∀ ports, e = .start ports → m.ephemeral ∉ ports := fun x hx => h1 x (by simp [hx])
    have h2' : ∀ e ∈ l, e ≠ .send m.ephemeral := fun x hx => h2 x (by simp [hx])
    cases e with
    | send p =>
      have hp : m.ephemeral ≠ p := fun h => h2 (.send p) (by simp) (by rw [h])
      have e1 : step m ⟨some m.ephemeral, r⟩ (.send p) = (⟨some m.ephemeral, r⟩, .sent p (if p ∈ r then .receiver else .nobody)) := by
        simp [step, send, bindTo, auto, owner, hp]
      simp only [run, e1, expected, ih r h1' h2']
    | start ports =>
      have hp : m.ephemeral ∉ ports := h1 _ (by simp) _ rfl
      have e1 : step m ⟨some m.ephemeral, r⟩ (.start ports) = (⟨some m.ephemeral, ports⟩, .started true) := by
        simp [step, startReceiver, hp]
      simp only [run, e1, expected, ih ports h1' h2']
    | stop => simp only [run, step, expected, ih [] h1' h2']

/-- The first packet goes to a receiver that runs. The first argument is the list of ports of the receiver that runs. -/
def FirstHeard : List Nat → List Event → Prop
  | _, [] => True
  | r, .send p :: _ => p ∈ r
  | _, .start ports :: l => FirstHeard ports l
  | _, .stop :: l => FirstHeard [] l

theorem run_free (m : Machine) (r : List Nat) (l : List Event) (h1 : ∀ e ∈ l, ∀ ports, e = .start ports → m.ephemeral ∉ ports)
    (h2 : ∀ e ∈ l, e ≠ .send m.ephemeral) (h : m.localAddress = false ∨ FirstHeard r l) : run m ⟨none, r⟩ l = expected r l := by
  induction l generalizing r with
  | nil => rfl
  | cons e l ih =>
    have h1' : ∀ e ∈ l, ∀ ports, e = .start ports → m.ephemeral ∉ ports := fun x hx => h1 x (by simp [hx])
    have h2' : ∀ e ∈ l, e ≠ .send m.ephemeral := fun x hx => h2 x (by simp [hx])
    cases e with
    | send p =>
      have hp : m.ephemeral ≠ p := fun h => h2 (.send p) (by simp) (by rw [h])
      have eb : bindTo m p ⟨none, r⟩ = ⟨none, r⟩ := by
        rcases h with h | h
        · simp [bindTo, h]
        · have : p ∈ r := h
          simp [bindTo, inUse, this]
      have e1 : step m ⟨none, r⟩ (.send p) = (⟨some m.ephemeral, r⟩, .sent p (if p ∈ r then .receiver else .nobody)) := by
        simp [step, send, eb, auto, owner, hp]
      simp only [run, e1, expected, run_bound m r l h1' h2']
    | start ports =>
      have e1 : step m ⟨none, r⟩ (.start ports) = (⟨none, ports⟩, .started true) := by
        simp [step, startReceiver]
      simp only [run, e1, expected, ih ports h1' h2' h]
    | stop => simp only [run, step, expected, ih [] h1' h2' h]

/-- C156 if the receiver is on another machine, or if the first packet is sent while a receiver listens at its port. -/
theorem C156_partial (m : Machine) (events : List Event) (h1 : ∀ e ∈ events, ∀ ports, e = .start ports → m.ephemeral ∉ ports)
    (h2 : ∀ e ∈ events, e ≠ .send m.ephemeral) (h : m.localAddress = false ∨ FirstHeard [] events) :
    run m start events = expected [] events := run_free m [] events h1 h2 h

/-- Non-vacuity: a receiver is stopped and started again while the simulator sends. -/
example : FirstHeard [] [.start [61649, 61650], .send 61650, .stop, .send 61649, .start [61649], .send 61649] := by simp [FirstHeard]

example : run ⟨true, 40000⟩ start [.start [61649, 61650], .send 61650, .stop, .send 61649, .start [61649], .send 61649] =
    [.started true, .sent 61650 .receiver, .stopped, .sent 61649 .nobody, .started true, .sent 61649 .receiver] := by decide

end Verif.SimPorts
