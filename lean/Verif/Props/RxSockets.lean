import Verif.Model.RxSockets

/-
C155: a receiver thread that comes up listens on the ports, at the address and with the buffers that are configured, with a decoder of its kind;
otherwise it reports an error.
-/
namespace Verif.RxSockets

namespace Spec

/-- One socket for each port, as configured. -/
def wanted (os : Os) (c : Config) : List Sock := c.ports.map (fun p => ⟨c.kind, os.inet c.address, p, c.buffer⟩)

/-- Nothing is in the way of the configuration. -/
def Possible (os : Os) (c : Config) : Prop :=
  (c.kind = .zmq → ∀ p ∈ c.ports, os.endpoint c.address p = true) ∧
  (c.kind ≠ .zmq → (c.ports = [] ∨ os.inet c.address ≠ inaddrNone) ∧ ∀ p ∈ c.ports, os.socketFails p = false ∧ os.bindFails p = false) ∧
  (c.kind = .udp → c.ports.Nodup)

def AsConfigured (os : Os) (c : Config) (decoder : Kind) : Outcome → Prop
  | .up l => l = wanted os c ∧ receive c decoder = some c.kind ∧ Possible os c
  | .error => ¬ Possible os c
  | .terminate => False

end Spec

open Spec

/-- C155. -/
def C155_statement : Prop := ∀ os c decoder, AsConfigured os c decoder (start os c)

/-- An operating system that lets everything happen, with the limits of a usual Linux. -/
def linux : Os := ⟨fun _ => 0, 212992, 212992, fun _ => false, fun _ => false, fun a _ => a == "0.0.0.0"⟩

/-- The TCP thread does not set the size of the buffer. -/
theorem C155_tcp_violated : ¬ AsConfigured linux ⟨.tcp, "0.0.0.0", [8989], 100000⟩ .tcp (start linux ⟨.tcp, "0.0.0.0", [8989], 100000⟩) := by
  intro h
  have e : start linux ⟨.tcp, "0.0.0.0", [8989], 100000⟩ = .up [⟨.tcp, 0, 8989, 212992⟩] := by decide
  rw [e] at h
  exact absurd h.1 (by decide)

/-- The UDP thread comes up with a smaller buffer than the default of the configuration, 30000000, asks for. -/
theorem C155_udp_violated : ¬ AsConfigured linux ⟨.udp, "0.0.0.0", [8989], 30000000⟩ .udp (start linux ⟨.udp, "0.0.0.0", [8989], 30000000⟩) := by
  intro h
  have e : start linux ⟨.udp, "0.0.0.0", [8989], 30000000⟩ = .up [⟨.udp, 0, 8989, 212992⟩] := by decide
  rw [e] at h
  exact absurd h.1 (by decide)

/-- A wrong address ends the process if the thread is a ZeroMQ thread. -/
theorem C155_zmq_violated : ¬ AsConfigured linux ⟨.zmq, "eth0;", [8989], 0⟩ .zmq (start linux ⟨.zmq, "eth0;", [8989], 0⟩) := by
  intro h
  have e : start linux ⟨.zmq, "eth0;", [8989], 0⟩ = .terminate := by decide
  rw [e] at h
  exact h

/-- A decoder of another kind is not noticed, until the first packet arrives. -/
theorem C155_decoder_violated (os : Os) (c : Config) (decoder : Kind) (h : decoder ≠ c.kind) : receive c decoder = none ∧
    (∀ l, start os c = .up l → ¬ AsConfigured os c decoder (start os c)) := by
  have hr : receive c decoder = none := by rw [receive, cast, if_neg h]
  refine ⟨hr, fun l hl hc => ?_⟩
  rw [hl] at hc
  have := hc.2.1
  rw [hr] at this
  cases this

theorem C155_violated : ¬ C155_statement := fun h => C155_tcp_violated (h _ _ _)

/-! ### What holds -/

theorem udp_ok (os : Os) (c : Config) (ports : List Nat) (l : List Sock) :
    (openUdp os c ports l = (l ++ ports.map (fun p => ⟨.udp, os.inet c.address, p, rcvbuf os c.buffer⟩), false) ∧
      ((ports = [] ∨ os.inet c.address ≠ inaddrNone) ∧ (∀ p ∈ ports, os.socketFails p = false ∧ os.bindFails p = false) ∧
        ports.Nodup ∧ ∀ p ∈ ports, ∀ s ∈ l, s.port ≠ p)) ∨
    ((openUdp os c ports l).2 = true ∧
      ¬ ((ports = [] ∨ os.inet c.address ≠ inaddrNone) ∧ (∀ p ∈ ports, os.socketFails p = false ∧ os.bindFails p = false) ∧
        ports.Nodup ∧ ∀ p ∈ ports, ∀ s ∈ l, s.port ≠ p)) := by
  induction ports generalizing l with
  | nil => exact Or.inl ⟨by simp [openUdp], Or.inl rfl, by simp, by simp, by simp⟩
  | cons p ps ih =>
    simp only [openUdp]
    by_cases h1 : os.socketFails p = true
    · rw [if_pos h1]
      refine Or.inr ⟨rfl, fun h => ?_⟩
      have := (h.2.1 p (by simp)).1
      rw [h1] at this; cases this
    · rw [if_neg h1]
      by_cases h2 : os.inet c.address = inaddrNone
      · rw [if_pos h2]
        refine Or.inr ⟨rfl, fun h => ?_⟩
        rcases h.1 with h | h
        · cases h
        · exact h h2
      · rw [if_neg h2]
        by_cases h3 : (os.bindFails p || l.any (fun s => s.port == p)) = true
        · rw [if_pos h3]
          refine Or.inr ⟨rfl, fun h => ?_⟩
          simp only [Bool.or_eq_true, List.any_eq_true, beq_iff_eq] at h3
          rcases h3 with h3 | ⟨s, hs, he⟩
          · have := (h.2.1 p (by simp)).2
            rw [h3] at this; cases this
          · exact h.2.2.2 p (by simp) s hs he
        · rw [if_neg h3]
          have h3' : os.bindFails p = false ∧ ∀ s ∈ l, s.port ≠ p := by simpa using h3
          rcases ih (l ++ [⟨.udp, os.inet c.address, p, rcvbuf os c.buffer⟩]) with ⟨e, k1, k2, k3, k4⟩ | ⟨e, k⟩
          · refine Or.inl ⟨by rw [e]; simp, Or.inr h2, ?_, ?_, ?_⟩
            · intro q hq
              simp only [List.mem_cons] at hq
              rcases hq with rfl | hq
              · exact ⟨by simpa using h1, h3'.1⟩
              · exact k2 q hq
            · refine List.nodup_cons.mpr ⟨fun hp => ?_, k3⟩
              exact k4 p hp ⟨.udp, os.inet c.address, p, rcvbuf os c.buffer⟩ (by simp) rfl
            · intro q hq s hs
              simp only [List.mem_cons] at hq
              rcases hq with rfl | hq
              · exact h3'.2 s hs
              · exact k4 q hq s (by simp [hs])
          · refine Or.inr ⟨e, fun h => k ⟨Or.inr h2, fun q hq => h.2.1 q (by simp [hq]), (List.nodup_cons.mp h.2.2.1).2, fun q hq s hs => ?_⟩⟩
            simp only [List.mem_append, List.mem_singleton] at hs
            rcases hs with hs | rfl
            · exact h.2.2.2 q (by simp [hq]) s hs
            · intro he
              exact (List.nodup_cons.mp h.2.2.1).1 (by rw [show p = q from he]; exact hq)

theorem tcp_ok (os : Os) (c : Config) (ports : List Nat) (l : List Sock) :
    (openTcp os c ports l = (l ++ ports.map (fun p => ⟨.tcp, os.inet c.address, p, os.rmemDefault⟩), false) ∧
      ((ports = [] ∨ os.inet c.address ≠ inaddrNone) ∧ ∀ p ∈ ports, os.socketFails p = false ∧ os.bindFails p = false)) ∨
    ((openTcp os c ports l).2 = true ∧
      ¬ ((ports = [] ∨ os.inet c.address ≠ inaddrNone) ∧ ∀ p ∈ ports, os.socketFails p = false ∧ os.bindFails p = false)) := by
  induction ports generalizing l with
  | nil => exact Or.inl ⟨by simp [openTcp], Or.inl rfl, by simp⟩
  | cons p ps ih =>
    simp only [openTcp]
    by_cases h1 : os.socketFails p = true
    · rw [if_pos h1]
      refine Or.inr ⟨rfl, fun h => ?_⟩
      have := (h.2 p (by simp)).1
      rw [h1] at this; cases this
    · rw [if_neg h1]
      by_cases h2 : os.inet c.address = inaddrNone
      · rw [if_pos h2]
        refine Or.inr ⟨rfl, fun h => ?_⟩
        rcases h.1 with h | h
        · cases h
        · exact h h2
      · rw [if_neg h2]
        by_cases h3 : os.bindFails p = true
        · rw [if_pos h3]
          refine Or.inr ⟨rfl, fun h => ?_⟩
          have := (h.2 p (by simp)).2
          rw [h3] at this; cases this
        · rw [if_neg h3]
          rcases ih (l ++ [⟨.tcp, os.inet c.address, p, os.rmemDefault⟩]) with ⟨e, k1, k2⟩ | ⟨e, k⟩
          · refine Or.inl ⟨by rw [e]; simp, Or.inr h2, fun q hq => ?_⟩
            simp only [List.mem_cons] at hq
            rcases hq with rfl | hq
            · exact ⟨by simpa using h1, by simpa using h3⟩
            · exact k2 q hq
          · exact Or.inr ⟨e, fun h => k ⟨Or.inr h2, fun q hq => h.2 q (by simp [hq])⟩⟩

theorem zmq_ok (os : Os) (c : Config) (ports : List Nat) (l : List Sock) (h : ∀ p ∈ ports, os.endpoint c.address p = true) :
    openZmq os c ports l = some (l ++ ports.map (fun p => ⟨.zmq, os.inet c.address, p, os.rmemDefault⟩)) := by
  induction ports generalizing l with
  | nil => simp [openZmq]
  | cons p ps ih =>
    simp only [openZmq]
    rw [if_pos (h p (by simp)), ih _ (fun q hq => h q (by simp [hq]))]
    simp

theorem checked_up (r : List Sock × Bool) (l : List Sock) (h : r = (l, false)) : checked r = .up l := by rw [h]; rfl

theorem checked_error (r : List Sock × Bool) (h : r.2 = true) : checked r = .error := by
  obtain ⟨l, b⟩ := r
  dsimp only at h
  subst h
  rfl

/-- C155 for UDP, for a decoder of this kind and a buffer that the operating system allows. -/
theorem C155_udp_partial (os : Os) (c : Config) (hk : c.kind = .udp) (hb : c.buffer ≤ os.rmemMax) : AsConfigured os c .udp (start os c) := by
  rcases udp_ok os c c.ports [] with ⟨e, h1, h2, h3, _⟩ | ⟨e, h⟩
  · have : start os c = .up (wanted os c) := by
      simp only [start, hk]
      apply checked_up
      rw [e, wanted, hk, rcvbuf, Nat.min_eq_left hb]
      rfl
    rw [this]
    exact ⟨rfl, by rw [receive, cast, if_pos hk.symm, hk], fun hz => (by rw [hk] at hz; cases hz), fun _ => ⟨h1, h2⟩, fun _ => h3⟩
  · have : start os c = .error := by
      simp only [start, hk]
      exact checked_error _ e
    rw [this]
    intro hp
    exact h ⟨(hp.2.1 (by rw [hk]; decide)).1, (hp.2.1 (by rw [hk]; decide)).2, hp.2.2 hk, by simp⟩

/-- C155 for TCP, for a decoder of this kind and the buffer that the operating system gives. -/
theorem C155_tcp_partial (os : Os) (c : Config) (hk : c.kind = .tcp) (hb : c.buffer = os.rmemDefault) : AsConfigured os c .tcp (start os c) := by
  rcases tcp_ok os c c.ports [] with ⟨e, h1, h2⟩ | ⟨e, h⟩
  · have : start os c = .up (wanted os c) := by
      simp only [start, hk]
      apply checked_up
      rw [e, wanted, hk, hb]
      rfl
    rw [this]
    exact ⟨rfl, by rw [receive, cast, if_pos hk.symm, hk], fun hz => (by rw [hk] at hz; cases hz), fun _ => ⟨h1, h2⟩, fun h => (by rw [hk] at h; cases h)⟩
  · have : start os c = .error := by
      simp only [start, hk]
      exact checked_error _ e
    rw [this]
    intro hp
    exact h (hp.2.1 (by rw [hk]; decide))

/-- C155 for ZeroMQ, for a decoder of this kind, endpoints that ZeroMQ accepts and the buffer that the operating system gives. -/
theorem C155_zmq_partial (os : Os) (c : Config) (hk : c.kind = .zmq) (hb : c.buffer = os.rmemDefault)
    (he : ∀ p ∈ c.ports, os.endpoint c.address p = true) : AsConfigured os c .zmq (start os c) := by
  have : start os c = .up (wanted os c) := by
    simp only [start, hk]
    rw [zmq_ok os c c.ports [] he]
    simp [wanted, hk, hb]
  rw [this]
  exact ⟨rfl, by rw [receive, cast, if_pos hk.symm, hk], fun _ => he, fun h => absurd hk h, fun h => (by rw [hk] at h; cases h)⟩

/-- Non-vacuity: two ports; a port that is given twice is an error. -/
example : start linux ⟨.udp, "0.0.0.0", [8989, 8990], 100000⟩ = .up [⟨.udp, 0, 8989, 100000⟩, ⟨.udp, 0, 8990, 100000⟩] := by decide
example : start linux ⟨.udp, "0.0.0.0", [8989, 8990, 8989], 100000⟩ = .error := by decide
example : start linux ⟨.zmq, "0.0.0.0", [8989, 8990], 212992⟩ = .up [⟨.zmq, 0, 8989, 212992⟩, ⟨.zmq, 0, 8990, 212992⟩] := by decide

end Verif.RxSockets
