/-
Model of the UDP ports that the simulator and a receiver on the same machine use.
Source: /repo/cpp/frameSimulator/src/FrameSimulatorPluginUDP.cpp: setup 74-86 (one socket, not bound), send_packet 243-251 (bind to the destination,
then sendto), destructor 272-276; /repo/cpp/frameReceiver/src/FrameReceiverUDPRxThread.cpp: run_specific_service 32-93.

`bind` fails if the socket has a port already, if the address is not one of this machine, or if the port is in use. `sendto` gives a socket without a
port one that the operating system chooses. A receiver that finds a port in use does not come up; that it keeps the others open is left out
(`Verif.Model.RxThread`). Which port a packet is sent to: `Verif.Model.Simulator`.
-/
namespace Verif.SimPorts

/-- The port of the simulator's socket, if it has one, and the ports of the receiver. -/
structure State where
  sim : Option Nat
  receiver : List Nat
  deriving DecidableEq, Repr

/-- Who gets a packet. -/
inductive To where
  | receiver | simulator | nobody
  deriving DecidableEq, Repr

/-- The machine: whether the destination is an address of it, and the port it gives to a socket that has none. -/
structure Machine where
  localAddress : Bool
  ephemeral : Nat

def inUse (s : State) (p : Nat) : Bool := s.receiver.contains p || s.sim == some p

/-- The call of `bind` in send_packet, FrameSimulatorPluginUDP.cpp:248; its result is not looked at. -/
def bindTo (m : Machine) (p : Nat) (s : State) : State :=
  if m.localAddress && s.sim.isNone && !inUse s p then ⟨some p, s.receiver⟩ else s

/-- `sendto`, FrameSimulatorPluginUDP.cpp:249: the socket gets a port. -/
def auto (m : Machine) (s : State) : State :=
  match s.sim with
  | some _ => s
  | none => ⟨some m.ephemeral, s.receiver⟩

/-- Whose socket has the port the packet is sent to. -/
def owner (s : State) (p : Nat) : To :=
  if s.receiver.contains p then .receiver else if s.sim = some p then .simulator else .nobody

/-- send_packet, FrameSimulatorPluginUDP.cpp:243-251. -/
def send (m : Machine) (p : Nat) (s : State) : State × To :=
  (auto m (bindTo m p s), owner (auto m (bindTo m p s)) p)

/-- The receiver opens its ports; `false`: it does not come up. -/
def startReceiver (ports : List Nat) (s : State) : State × Bool :=
  if ports.any (fun p => s.sim == some p) then (⟨s.sim, []⟩, false) else (⟨s.sim, ports⟩, true)

inductive Event where
  | send (p : Nat)
  | start (ports : List Nat)
  | stop
  deriving DecidableEq, Repr

/-- What is seen of an event. -/
inductive Seen where
  | sent (p : Nat) (to : To)
  | started (ok : Bool)
  | stopped
  deriving DecidableEq, Repr

def step (m : Machine) (s : State) : Event → State × Seen
  | .send p => ((send m p s).1, .sent p (send m p s).2)
  | .start ports => ((startReceiver ports s).1, .started (startReceiver ports s).2)
  | .stop => (⟨s.sim, []⟩, .stopped)

/-- A history of a simulator and of receivers that are started and stopped one after the other. -/
def run (m : Machine) : State → List Event → List Seen
  | _, [] => []
  | s, e :: l => (step m s e).2 :: run m (step m s e).1 l

def start : State := ⟨none, []⟩

end Verif.SimPorts
