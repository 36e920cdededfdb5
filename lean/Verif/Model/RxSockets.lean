/-
Model of how the three kinds of receiver threads set up their sockets.
Source: /repo/cpp/frameReceiver/src/FrameReceiverUDPRxThread.cpp: constructor 14-25, run_specific_service 32-93, handle_receive_socket 99-143;
FrameReceiverTCPRxThread.cpp: constructor 12-24, run_specific_service 30-97, handle_receive_socket 107-123;
FrameReceiverZMQRxThread.cpp: constructor 12-24, run_specific_service 31-47, handle_receive_socket 58-76;
FrameReceiverRxThread.cpp: run_service 111-189; FrameReceiverController.cpp: configure_rx_thread 675-754.

The operating system is an argument: which calls fail, and what the limit of receive buffers is. Linux sets SO_RCVBUF silently to the limit if more is
asked for. For what is received over TCP see `Verif.Model.Tcp`, for ZeroMQ messages `Verif.Model.Channel`, for the sockets that stay open after an
error `Verif.Model.RxThread`.
-/
namespace Verif.RxSockets

inductive Kind where
  | udp | tcp | zmq
  deriving DecidableEq, Repr

/-- What the thread reads from its FrameReceiverConfig. -/
structure Config where
  kind : Kind
  address : String
  ports : List Nat
  buffer : Nat
  deriving DecidableEq, Repr

/-- A socket, or for ZeroMQ an endpoint that the channel is connected to. -/
structure Sock where
  kind : Kind
  address : Nat
  port : Nat
  buffer : Nat
  deriving DecidableEq, Repr

/-- The operating system and the ZeroMQ library. -/
structure Os where
  inet : String → Nat              -- inet_addr
  rmemDefault : Nat
  rmemMax : Nat
  socketFails : Nat → Bool         -- socket or setsockopt fails for this port
  bindFails : Nat → Bool           -- bind or connect fails for this port
  endpoint : String → Nat → Bool   -- zmq_connect accepts the endpoint

def inaddrNone : Nat := 2^32 - 1

/-- setsockopt with SO_RCVBUF, FrameReceiverUDPRxThread.cpp:52. -/
def rcvbuf (os : Os) (n : Nat) : Nat := min n os.rmemMax

/-- run_specific_service of the UDP thread, FrameReceiverUDPRxThread.cpp:32-93: the sockets registered and whether set_thread_init_error was called. -/
def openUdp (os : Os) (c : Config) : List Nat → List Sock → List Sock × Bool
  | [], l => (l, false)
  | p :: ps, l =>
    if os.socketFails p then (l, true)
    else if os.inet c.address = inaddrNone then (l, true)
    else if os.bindFails p || l.any (fun s => s.port == p) then (l, true)
    else openUdp os c ps (l ++ [⟨.udp, os.inet c.address, p, rcvbuf os c.buffer⟩])

/-- run_specific_service of the TCP thread, FrameReceiverTCPRxThread.cpp:30-97. The option that is set to the size of the buffer is SO_REUSEADDR
(48-50), so that the buffer keeps its default size. -/
def openTcp (os : Os) (c : Config) : List Nat → List Sock → List Sock × Bool
  | [], l => (l, false)
  | p :: ps, l =>
    if os.socketFails p then (l, true)
    else if os.inet c.address = inaddrNone then (l, true)
    else if os.bindFails p then (l, true)
    else openTcp os c ps (l ++ [⟨.tcp, os.inet c.address, p, os.rmemDefault⟩])

/-- run_specific_service of the ZeroMQ thread, FrameReceiverZMQRxThread.cpp:31-47; `none`: the exception of zmq::socket_t::connect leaves it. -/
def openZmq (os : Os) (c : Config) : List Nat → List Sock → Option (List Sock)
  | [], l => some l
  | p :: ps, l =>
    if os.endpoint c.address p then openZmq os c ps (l ++ [⟨.zmq, os.inet c.address, p, os.rmemDefault⟩])
    else none

/-- How starting a thread ends. -/
inductive Outcome where
  | up (l : List Sock)
  | error                    -- thread_init_error_
  | terminate                -- an exception leaves the function of the thread
  deriving DecidableEq, Repr

/-- What run_service makes of the error flag, FrameReceiverRxThread.cpp:154-157. -/
def checked : List Sock × Bool → Outcome
  | (_, true) => .error
  | (l, false) => .up l

/-- run_service up to the event loop, FrameReceiverRxThread.cpp:111-160, called through configure_rx_thread, FrameReceiverController.cpp:727-746. -/
def start (os : Os) (c : Config) : Outcome :=
  match c.kind with
  | .udp => checked (openUdp os c c.ports [])
  | .tcp => checked (openTcp os c c.ports [])
  | .zmq =>
    match openZmq os c c.ports [] with
    | none => .terminate
    | some l => .up l

/-- The pointer that the thread keeps: dynamic_pointer_cast of the decoder (FrameReceiverUDPRxThread.cpp:24, FrameReceiverTCPRxThread.cpp:23,
FrameReceiverZMQRxThread.cpp:23) is null if the decoder is of another kind. -/
def cast (c : Config) (decoder : Kind) : Option Kind := if decoder = c.kind then some decoder else none

/-- What becomes of data that arrives: handle_receive_socket uses the pointer; `none`: null is dereferenced. -/
def receive (c : Config) (decoder : Kind) : Option Kind := cast c decoder

end Verif.RxSockets
