import Verif.Model.Programs

/-
Model of what a fault does to the receiver or the processor.
Source: /repo/cpp/common/include/SegFaultHandler.h: print_stack_trace 29-50, abort_handler 62-90, init_seg_fault_handler 107-120; its use
in main, FrameProcessorApp.cpp:281 and FrameReceiverApp.cpp:314; the static objects: controller_, FrameProcessorApp.cpp:44 and
FrameReceiverApp.cpp:35, and the context of ZeroMQ, /repo/cpp/common/src/IpcChannel.cpp: IpcContext::Instance 20-25; the owners of the controller:
FrameProcessorApp.cpp:60-63, FrameReceiverApp.cpp:59-62; the threads that poll: IpcReactor.cpp:247-340, FrameProcessorController.cpp:1020-1041,
FrameReceiverController.cpp:131-161, FrameReceiverApp.cpp:272-286.

The handler runs in the thread of the fault and calls `exit`, which destroys the static objects in the reverse order in which they were made.
The main function is not left, so the application in it, which would destroy the controller, is not destroyed. The numbers
of the signals are those of Linux. That destroying a context of ZeroMQ waits until all its sockets are closed, and ends the calls of other threads
with an error (ETERM), is taken from its documentation. The text of the trace is left out. A second call of `exit` is undefined.
-/
namespace Verif.Fault

/-- Signals. -/
inductive Sig
  | abrt | segv | bus | ill | fpe | pipe
  | other (n : Nat)
deriving DecidableEq, Repr

/-- Their numbers on Linux. -/
def num : Sig → Nat
  | .abrt => 6
  | .segv => 11
  | .bus => 7
  | .ill => 4
  | .fpe => 8
  | .pipe => 13
  | .other n => n

/-- The names in `abort_handler`, lines 65-74. -/
def name : Sig → Option String
  | .abrt => some "SIGABRT"
  | .segv => some "SIGSEGV"
  | .bus => some "SIGBUS"
  | .ill => some "SIGILL"
  | .fpe => some "SIGFPE"
  | .pipe => some "SIGPIPE"
  | .other _ => none

/-- Those with the handler, lines 114-119. -/
def handled : List Sig := [.abrt, .segv, .bus, .ill, .fpe, .pipe]

/-- What a thread does with the exception that comes of ETERM: it is not in a call of ZeroMQ, and notices nothing; it catches
the exception, leaves main and so calls `exit` (the receiver: FrameReceiverApp.cpp:272-286); or the exception leaves the function of the thread,
which is `std::terminate` and SIGABRT (the processor: FrameProcessorController.cpp:1037). -/
inductive React
  | nothing | leaves | dies
deriving DecidableEq, Repr

/-- Objects destroyed by `exit`. -/
inductive Static
  | controller                 -- `controller_`: its channels are closed
  | context                    -- of ZeroMQ
  | locks (k : Nat)            -- an object whose destructor takes a lock, e.g. that of the logger or of the heap
  | faults (s : Sig)           -- one whose destructor faults
deriving DecidableEq, Repr

/-- The program when the fault occurs. -/
structure World where
  statics : List Static := []  -- in the order in which they were made
  sockets : Nat := 0           -- that are open
  others : List React := []    -- the threads without the one of the fault
  held : List Nat := []        -- locks that this one holds
deriving DecidableEq, Repr

inductive End
  | exited (status : Nat)
  | killed (signal : Nat)
  | hung
  | twice                      -- `exit` is called once more: undefined
deriving DecidableEq, Repr

/-- A signal in the handler of `s`, which is blocked meanwhile (`sa_mask` is empty): a fault of a blocked signal kills. -/
def again (s t : Sig) : End := if t = s then .killed (num t) else if t ∈ handled then .twice else .killed (num t)

/-- The context is destroyed with sockets open. -/
def waits (others : List React) : End := if others.all (· == .nothing) then .hung else .twice

/-- `exit(signum)`, line 89: the static objects, the last one first. -/
def leave (w : World) (s : Sig) : List Static → Nat → End
  | [], _ => .exited (num s)
  | .controller :: l, _ => leave w s l 0
  | .context :: l, n => if n = 0 then leave w s l n else waits w.others
  | .locks k :: l, n => if k ∈ w.held then .hung else leave w s l n
  | .faults t :: _, _ => again s t

/-- A fault: the line that is written, lines 79-83, and the end. -/
def fault (w : World) (s : Sig) : Option (Nat × Option String) × End :=
  if s ∈ handled then (some (num s, name s), leave w s w.statics.reverse w.sockets) else (none, .killed (num s))

/-- The static objects: `controller_` is made before main, the context with the first channel; `l`: further ones made before it, `r`:
after it. -/
def statics (l r : List Static) : List Static := l ++ .controller :: .context :: r

/-- An exception that nobody catches: `std::terminate` calls `abort`, and the handler does not return. -/
def ended (w : World) : Programs.Exit → Option (Nat × Option String) × End
  | .status n => (none, .exited (n % 256).toNat)
  | .terminate => fault w .abrt

end Verif.Fault
