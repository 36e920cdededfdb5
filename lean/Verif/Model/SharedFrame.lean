/-
Model of the life of frames in shared memory in the frame processor.
Source: /repo/cpp/frameProcessor/src/SharedMemoryController.cpp: constructor, destructor, setSharedBufferManager,
handleRxChannel 161-238; SharedBufferFrame.cpp (constructor; destructor, which sends the release notification through
the channel of the shared memory controller that made the frame); FrameProcessorController.cpp:
setupFrameReceiverInterface 875-902, closeFrameReceiverInterface 906-920; common/src/SharedBufferManager.cpp:
get_buffer_address.
A `boost::shared_ptr<Frame>` held by a queue or by a plugin is a holder. Shared memory controllers and shared buffer
managers are numbered in the order of their creation; 0 is none. Copies of a frame object are not modelled; there are
none in the code.
-/
namespace Verif.SharedFrame

structure Frame where
  buffer : Nat
  smc : Nat          -- whose channel `shared_channel_` points to
  sbm : Nat          -- whose memory `data_ptr_` points to
  holders : Nat
deriving DecidableEq, Repr

structure St where
  smc : Nat := 0               -- `sharedMemController_`
  sbm : Nat := 0               -- its `sbm_`
  buffers : Nat := 0           -- the number of buffers of `sbm_`
  cbs : Nat := 0               -- the number of its `callbacks_`
  made : Nat := 0              -- objects made so far
  frames : List Frame := []
  pending : List Nat := []     -- the timers of `requestSharedBufferConfig`: whose they are
  sent : List Nat := []        -- release notifications: the numbers of the frames
  msgs : List Nat := []        -- and the buffers they name
  ignored : Nat := 0           -- frame ready notifications without effect
deriving DecidableEq, Repr

inductive Op
  | setup                      -- a new shared memory controller for new endpoints
  | close                      -- closeFrameReceiverInterface
  | connect (n : Nat)          -- the number of plugins connected to it becomes `n`
  | config (n : Nat) (ok : Bool)  -- a buffer configuration: `n` buffers; false if the memory cannot be opened
  | ready (buffer : Nat)       -- a frame ready notification
  | dup (i : Nat)              -- a holder of frame i passes it on and keeps it
  | drop (i : Nat)             -- a holder drops frame i
  | read (i : Nat)             -- a holder reads the data of frame i
  | timer                      -- the oldest timer fires and sends the request for the buffer configuration
deriving DecidableEq, Repr

inductive Res
  | ok (s : St)
  | ub                         -- a destroyed object or unmapped memory is used
  | crash                      -- an exception leaves the thread
deriving DecidableEq, Repr

/-- Frame `i` is held by `n` (the use count of its `shared_ptr`). -/
def hold (s : St) (i : Nat) (f : Frame) (n : Nat) : St := { s with frames := s.frames.set i { f with holders := n } }

/-- SharedBufferFrame.cpp 31-40: the destructor of frame `i`. -/
def release (s : St) (i : Nat) (f : Frame) : Res :=
  if f.smc = s.smc then .ok { s with sent := s.sent ++ [i], msgs := s.msgs ++ [f.buffer] } else .ub

/-- SharedMemoryController.cpp 173-209: the frame made by `handleRxChannel`, given to all callbacks; it is dropped at once if there is none. -/
def receive (s : St) (b : Nat) : Res :=
  if s.sbm = 0 then .ok { s with ignored := s.ignored + 1 }
  else if b < s.buffers then
    if s.cbs = 0 then
      .ok { s with frames := s.frames ++ [{ buffer := b, smc := s.smc, sbm := s.sbm, holders := 0 }],
                   sent := s.sent ++ [s.frames.length], msgs := s.msgs ++ [b] }
    else .ok { s with frames := s.frames ++ [{ buffer := b, smc := s.smc, sbm := s.sbm, holders := s.cbs }] }
  else .crash

/-- `setup`: FrameProcessorController.cpp 875-902 and SharedMemoryController.cpp 31-75; `close`: 906-920 and 80-87;
`connect`: registerCallback and removeCallback 249-280; `config`: 95-115 and 211-222 (the exceptions of the shared
buffer manager are not caught); `timer`: 126-150. Operations that are not possible leave the state as it is. -/
def step (s : St) : Op → Res
  | .setup => .ok { s with smc := s.made + 1, sbm := 0, buffers := 0, cbs := 0, made := s.made + 1,
                           pending := s.pending ++ [s.made + 1] }
  | .close => .ok { s with smc := 0, sbm := 0, buffers := 0, cbs := 0 }
  | .connect n => if s.smc = 0 then .ok s else .ok { s with cbs := n }
  | .config n ok =>
    if s.smc = 0 then .ok s
    else if ok then .ok { s with sbm := s.made + 1, buffers := n, made := s.made + 1 } else .crash
  | .ready b => if s.smc = 0 then .ok s else receive s b
  | .dup i =>
    match s.frames[i]? with
    | some f => if f.holders = 0 then .ok s else .ok (hold s i f (f.holders + 1))
    | none => .ok s
  | .drop i =>
    match s.frames[i]? with
    | some f =>
      if f.holders = 0 then .ok s
      else if f.holders = 1 then release (hold s i f 0) i f
      else .ok (hold s i f (f.holders - 1))
    | none => .ok s
  | .read i =>
    match s.frames[i]? with
    | some f => if f.holders = 0 then .ok s else if f.smc = s.smc ∧ f.sbm = s.sbm then .ok s else .ub
    | none => .ok s
  | .timer =>
    match s.pending with
    | t :: ts => if t = s.smc then .ok { s with pending := ts } else .ub
    | [] => .ok s

def run (s : St) : List Op → Res
  | [] => .ok s
  | o :: os =>
    match step s o with
    | .ok s => run s os
    | r => r

end Verif.SharedFrame
