/-!
The way of the frame buffers through the whole system: receiver thread, receiver controller, frame processor.

* cpp/frameReceiver/src/FrameReceiverRxThread.cpp: `run_service` 160-168, `handle_rx_channel` 224-344, `frame_ready` 410-420
* cpp/frameReceiver/src/FrameReceiverController.cpp: `configure_buffer_manager` 613-660, `configure_rx_thread` 715-754,
  `stop_rx_thread` 762-775, `handle_rx_channel` 887-960, `handle_frame_release_channel` 969-1014, `precharge_buffers` 1023-1039
* cpp/frameReceiver/src/FrameDecoder.cpp: `push_empty_buffer` 101-104, `get_num_empty_buffers` 113-116, `drop_all_buffers` 173-190
* cpp/frameProcessor/src/SharedMemoryController.cpp: `handleRxChannel` 161-238; SharedBufferFrame.cpp: destructor

Every channel keeps the order of messages. A message to a receiver thread that has stopped is dropped (ROUTER socket), and so
are the messages it has not read. A frame is announced to every subscriber (PUB socket); each processor releases it once. What
the decoder puts into a buffer is the subject of `Decoder`, and the life of a frame inside the processor that of
`SharedFrame`. Status messages are left out.
-/
namespace Verif.Circulation

/-- From the receiver thread to the controller. -/
inductive Up
  | identity (k : Nat)
  | request              -- `MsgValCmdBufferPrechargeRequest`
  | ready (b : Nat)      -- `MsgValNotifyFrameReady`
deriving DecidableEq, Repr

/-- From the controller to the receiver thread. -/
inductive Down
  | precharge (n : Nat)  -- buffers 0 to n-1
  | release (b : Nat)
deriving DecidableEq, Repr

structure St where
  n : Nat := 0                   -- buffers of the shared memory
  subs : Nat := 0                -- processors subscribed to the frame ready channel
  thread : Bool := false         -- a receiver thread runs
  epoch : Nat := 0               -- how many threads have been started, the identity of the last one
  ident : Nat := 0               -- `rx_thread_identity_`
  empty : List Nat := []         -- `empty_buffer_queue_`
  mapped : List Nat := []        -- `frame_buffer_map_`: buffers of frames being received
  up : List Up := []
  down : List Down := []
  ready : List Nat := []         -- announced to the processors, one entry per subscriber
  held : List Nat := []          -- held by processors
  freed : List Nat := []         -- release messages from the processors
deriving DecidableEq, Repr

inductive Act
  | start              -- `configure_rx_thread`: the old thread is stopped, a new one is started
  | recreate (n : Nat) -- `configure_buffer_manager`: thread stopped, buffers dropped, new shared memory
  | rx                 -- the receiver thread handles a message
  | ctrl               -- the controller handles a message of the receiver thread
  | rel                -- the controller handles a release message
  | take               -- the decoder takes an empty buffer for a frame
  | done (b : Nat)     -- the decoder hands on a frame
  | get                -- a processor handles an announcement
  | drop (b : Nat)     -- a processor destroys its last reference to a frame
deriving DecidableEq, Repr

/-- What a new receiver thread sends first: `run_service` 163-168. -/
def hello (k : Nat) (empty : List Nat) : List Up := if empty = [] then [.identity k, .request] else [.identity k]

/-- `rx_channel_.send(…, rx_thread_identity_)`. -/
def send (s : St) (m : Down) : St := if s.thread = true ∧ s.ident = s.epoch then { s with down := s.down ++ [m] } else s

/-- `stop_rx_thread`. -/
def stop (s : St) : St := { s with thread := false, down := [] }

def start (s : St) : St :=
  { s with thread := true, epoch := s.epoch + 1, down := [], up := s.up ++ hello (s.epoch + 1) s.empty }

/-- `drop_all_buffers` and the new shared memory. -/
def recreate (n : Nat) (s : St) : St := { stop s with n := n, empty := [], mapped := [] }

/-- `handle_rx_channel` of the receiver thread. -/
def rx (s : St) : St :=
  if s.thread then
    match s.down with
    | [] => s
    | .precharge n :: l => { s with down := l, empty := s.empty ++ List.range n }
    | .release b :: l => { s with down := l, empty := s.empty ++ [b] }
  else s

/-- `handle_rx_channel` of the controller. -/
def ctrl (s : St) : St :=
  match s.up with
  | [] => s
  | .identity k :: l => { s with up := l, ident := k }
  | .request :: l => send { s with up := l } (.precharge s.n)
  | .ready b :: l => { s with up := l, ready := s.ready ++ List.replicate s.subs b }

/-- `handle_frame_release_channel`. -/
def rel (s : St) : St :=
  match s.freed with
  | [] => s
  | b :: l => send { s with freed := l } (.release b)

/-- The decoder takes the first empty buffer. -/
def take (s : St) : St :=
  if s.thread then
    match s.empty with
    | [] => s
    | b :: l => { s with empty := l, mapped := b :: s.mapped }
  else s

/-- `frame_ready`. -/
def done (b : Nat) (s : St) : St :=
  if s.thread = true ∧ b ∈ s.mapped then { s with mapped := s.mapped.erase b, up := s.up ++ [.ready b] } else s

def get (s : St) : St :=
  match s.ready with
  | [] => s
  | b :: l => { s with ready := l, held := b :: s.held }

/-- The destructor of the last `SharedBufferFrame`. -/
def drop (b : Nat) (s : St) : St :=
  if b ∈ s.held then { s with held := s.held.erase b, freed := s.freed ++ [b] } else s

def step (s : St) : Act → St
  | .start => start s
  | .recreate n => recreate n s
  | .rx => rx s
  | .ctrl => ctrl s
  | .rel => rel s
  | .take => take s
  | .done b => done b s
  | .get => get s
  | .drop b => drop b s

def run (s : St) (l : List Act) : St := l.foldl step s

end Verif.Circulation
