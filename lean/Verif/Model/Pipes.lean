/-
Model of the pipes of ZeroMQ on the way of a buffer from the thread of the receiver to the processor and back.
Source: /repo/cpp/frameReceiver/src/FrameReceiverRxThread.cpp: frame_ready 410-421, handle_rx_channel 224-345; FrameReceiverController.cpp: channels 38-41,
handle_rx_channel 887-960, handle_frame_release_channel 969-1011, precharge_buffers 1023-1040, notify_buffer_config 1051-1072;
/repo/cpp/frameProcessor/src/SharedMemoryController.cpp: channels 35-36, requestSharedBufferConfig 126-150, handleRxChannel 161-239; SharedBufferFrame.cpp:31-41;
/repo/cpp/common/src/IpcChannel.cpp: constructors 59-93, which set no limit, send 228-271.

ZeroMQ gives every pipe a limit of 1000 messages at either end if none is set. A DEALER waits while its pipe is full; PUB and ROUTER drop
the message, without an error. What it needs beyond that (memory of the network) only makes pipes longer, so the limit `cap` is a parameter.
A receiver and one processor run, both are configured; that threads are stopped or started again is in Circulation.lean.
-/
namespace Verif.Pipes

/-- A message in a pipe: about a buffer, or about something else. -/
inductive Msg
  | buf (b : Nat)
  | other
deriving DecidableEq, Repr

/-- The limit of ZeroMQ if none is set, as in IpcChannel.cpp:59-93. -/
def defaultLimit : Nat := 1000

/-- Where the buffers are. -/
structure St where
  empty : List Nat := []          -- queue of empty buffers of the decoder
  q1 : List Msg := []             -- DEALER to ROUTER: from the thread to the controller of the receiver
  q2 : List Msg := []             -- PUB to SUB: frames ready
  held : List Nat := []           -- frames in the processor
  q3 : List Msg := []             -- PUB to SUB: frames released
  q4 : List Msg := []             -- ROUTER to DEALER: back to the thread
  lostReady : List Nat := []      -- dropped from q2
  lostRelease : List Nat := []    -- dropped from q3 or q4
  received : Nat := 0             -- `frames_received_`
  released : Nat := 0             -- `frames_released_`
  taken : Nat := 0                -- frames that the processor was told of
deriving DecidableEq, Repr

/-- The buffers in a pipe. -/
def bufs : List Msg → List Nat
  | [] => []
  | .buf b :: l => b :: bufs l
  | .other :: l => bufs l

/-- A pipe after a message was sent, IpcChannel.cpp:228-271. -/
def post (cap : Nat) (q : List Msg) (m : Msg) : List Msg := if q.length < cap then q ++ [m] else q

/-- What is dropped. -/
def dropped (cap : Nat) (q : List Msg) (m : Msg) : List Nat := if q.length < cap then [] else bufs [m]

/-- What happens. -/
inductive Op
  | ready | status | forward | config | take | release (i : Nat) | request | back | hello | reuse
deriving DecidableEq, Repr

/-- One of them. -/
def step (cap : Nat) (s : St) : Op → St
  -- a frame is complete, FrameReceiverRxThread.cpp:410-421; the DEALER waits for room
  | .ready => match s.empty with
    | [] => s
    | b :: l => if s.q1.length < cap then { s with empty := l, q1 := s.q1 ++ [.buf b] } else s
  -- status of the thread, FrameReceiverRxThread.cpp:369-379 (that it waits as well makes no difference for the buffers)
  | .status => { s with q1 := post cap s.q1 .other }
  -- FrameReceiverController.cpp:887-960
  | .forward => match s.q1 with
    | [] => s
    | .other :: q => { s with q1 := q }
    | .buf b :: q => { s with q1 := q, q2 := post cap s.q2 (.buf b), lostReady := s.lostReady ++ dropped cap s.q2 (.buf b), received := s.received + 1 }
  -- configuration of the memory, FrameReceiverController.cpp:1051-1072
  | .config => { s with q2 := post cap s.q2 .other }
  -- SharedMemoryController.cpp:161-239
  | .take => match s.q2 with
    | [] => s
    | .other :: q => { s with q2 := q }
    | .buf b :: q => { s with q2 := q, held := b :: s.held, taken := s.taken + 1 }
  -- the last user of a frame is done, SharedBufferFrame.cpp:31-41
  | .release i => match s.held[i]? with
    | none => s
    | some b => { s with held := s.held.eraseIdx i, q3 := post cap s.q3 (.buf b), lostRelease := s.lostRelease ++ dropped cap s.q3 (.buf b) }
  -- SharedMemoryController.cpp:126-150
  | .request => { s with q3 := post cap s.q3 .other }
  -- FrameReceiverController.cpp:969-1011
  | .back => match s.q3 with
    | [] => s
    | .other :: q => { s with q3 := q }
    | .buf b :: q => { s with q3 := q, q4 := post cap s.q4 (.buf b), lostRelease := s.lostRelease ++ dropped cap s.q4 (.buf b), released := s.released + 1 }
  -- acknowledgements of the controller, 932-936
  | .hello => { s with q4 := post cap s.q4 .other }
  -- FrameReceiverRxThread.cpp:224-345
  | .reuse => match s.q4 with
    | [] => s
    | .other :: q => { s with q4 := q }
    | .buf b :: q => { s with q4 := q, empty := s.empty ++ [b] }

/-- With all buffers empty, FrameReceiverController.cpp:1023-1040 (precharge). -/
def start (n : Nat) : St := { empty := List.range n }

/-- All that happens. -/
def run (cap n : Nat) (ops : List Op) : St := ops.foldl (step cap) (start n)

end Verif.Pipes
