/-
Model of the way of a frame buffer from the receiver thread to the processor and back, as messages with a frame number and a buffer number.
Source: /repo/cpp/frameReceiver/src/DummyUDPFrameDecoder.cpp 376, 425; FrameReceiverRxThread.cpp: frame_ready 410-420, the release notification 305-319;
FrameReceiverController.cpp: handle_rx_channel 921-927, handle_frame_release_channel 969-1013; /repo/cpp/frameProcessor/src/SharedMemoryController.cpp 174-194;
SharedBufferFrame.cpp 5-15 and 30-40; /repo/cpp/common/include/DebugLevelLogger.h 22-24; /repo/cpp/common/src/IpcMessage.cpp 727-730 (get_value<int>).

The numbers of a message survive its text (C118, C149) and an integer is an `int` exactly if it is in its range (C157).
-/
namespace Verif.ReleasePath

/-- The two parameters of the notifications. -/
structure Msg where
  frame : Int
  buffer : Int
  deriving DecidableEq, Repr

/-- get_param<int>, IpcMessage.h:179-197 with GetInt, IpcMessage.cpp:727-730: an exception for what is not in the range of int. -/
def getInt (v : Int) : Option Int := if -(2 ^ 31) ≤ v ∧ v < 2 ^ 31 then some v else none

/-- The conversion of an unsigned number with 32 bits to int in the call of the callback, DummyUDPFrameDecoder.cpp:376 and 425. -/
def toInt (n : Nat) : Int := if n < 2 ^ 31 then n else n - 2 ^ 32

/-- static_cast<uint64_t>, SharedBufferFrame.cpp:35, and the conversion of `bufferID`, 13. -/
def toU64 (v : Int) : Int := v % 18446744073709551616

/-- frame_ready, FrameReceiverRxThread.cpp:410-420. -/
def ready (buffer frame : Nat) : Msg := ⟨toInt frame, buffer⟩

/-- The level of the log: `debug_level`, and whether the logger lets messages of level DEBUG through. -/
structure Log where
  level : Nat
  enabled : Bool
  deriving DecidableEq, Repr

/-- LOG4CXX_DEBUG_LEVEL evaluates what is printed only if it is printed, DebugLevelLogger.h:22-24. -/
def prints (log : Log) (n : Nat) : Bool := decide (n ≤ log.level) && log.enabled

/-- What is evaluated for the log in both handlers, FrameReceiverController.cpp:922-924 and 979-981: the two numbers; `none`: an exception. -/
def numbers (m : Msg) : Option Unit := (getInt m.frame).bind fun _ => (getInt m.buffer).map fun _ => ()

def logged (log : Log) (m : Msg) : Option Unit := if prints log 2 then numbers m else some ()

/-- handle_rx_channel for a frame that is ready, FrameReceiverController.cpp:921-927: what is sent to the processors. -/
def forwardReady (log : Log) (m : Msg) : Option Msg := (logged log m).map fun _ => m

/-- A frame at the processor: number and buffer as they are kept, SharedMemoryController.cpp:174-194. `none`: no frame is made. -/
def receive (m : Msg) : Option (Int × Int) :=
  (getInt m.buffer).bind fun b => if b = -1 then none else (getInt m.frame).map fun f => (f, toU64 b)

/-- The destructor of SharedBufferFrame, SharedBufferFrame.cpp:30-40. -/
def release (f : Int × Int) : Msg := ⟨toU64 f.1, f.2⟩

/-- handle_frame_release_channel, FrameReceiverController.cpp:969-1013: what is sent to the receiver thread; it is counted then. -/
def forwardRelease (log : Log) (m : Msg) : Option Msg := (logged log m).map fun _ => m

/-- The receiver thread, FrameReceiverRxThread.cpp:305-319: the buffer that is made available again. -/
def push (m : Msg) : Option Int := (getInt m.buffer).bind fun b => if b = -1 then none else some b

/-- The whole way. -/
def way (log : Log) (buffer frame : Nat) : Option Int :=
  (forwardReady log (ready buffer frame)).bind fun m => (receive m).bind fun f => (forwardRelease log (release f)).bind push

end Verif.ReleasePath
