import Verif.Model.IpcMessage

/-!
The messages between receiver and processor, with any contents, and what they can do to the two programs.

* cpp/frameReceiver/src/FrameReceiverController.cpp: `handle_frame_release_channel` 969-1013
* cpp/frameReceiver/src/FrameReceiverRxThread.cpp: `handle_rx_channel` 224-344, the release notification 305-319
* cpp/frameReceiver/src/FrameDecoder.cpp: `push_empty_buffer` 101-104; DummyUDPFrameDecoder.cpp 241-246, DummyTCPFrameDecoder.cpp 84-88
* cpp/common/src/SharedBufferManager.cpp: constructor for an existing object 58-80, `get_buffer_address` 104-113
* cpp/frameProcessor/src/SharedMemoryController.cpp: `setSharedBufferManager` 95-115, `handleRxChannel` 161-238

All handlers catch `IpcMessageException` and nothing else, and nothing is caught above them: another exception ends the program. A message is
the document of its text, or none if the text does not parse. Replies and the counting of releases are not modelled (C66).
-/
namespace Verif.Notices

open Verif.Ipc

/-- What becomes of a message or a packet. -/
inductive Out (α : Type)
  | ok (a : α)
  | refused          -- an `IpcMessageException`, or an error in the log
  | ends             -- another exception
deriving Repr

structure St where
  buffers : Nat                                -- `num_buffers` of the shared memory of the receiver
  queue : List Int                             -- `empty_buffer_queue_`
  names : Str → Option Nat                     -- objects of shared memory, with their number of buffers
  proc : Option Nat := none                    -- `sbm_` of the processor, with its number of buffers
  frames : List Int := []                      -- buffers the processor has made frames of
  rxEnded : Bool := false
  procEnded : Bool := false

/-- The constructor of a message from a text, strict. -/
def message (T : Times) (j : Option Json) : Out Msg :=
  match j with
  | none => .refused
  | some d => match decode T true d with
    | none => .refused
    | some m => .ok m

/-- `get_param<int>(name, d)`. `none`: an `IpcMessageException`. -/
def intParam (m : Msg) (name : String) (d : Int) : Option Int :=
  match getParamOr m.params name.toList with
  | none => none
  | some none => some d
  | some (some v) => v.asInt

/-- `get_buffer_address(const unsigned int)` for an `int`, SharedBufferManager.cpp:104-113. -/
def addressable (n : Nat) (i : Int) : Bool := decide (0 ≤ i ∧ i < n)

/-- What the log of level 2 evaluates in the controller, FrameReceiverController.cpp:979-981. -/
def logs (level2 : Bool) (m : Msg) : Bool := !level2 || ((intParam m "frame" (-1)).isSome && (intParam m "buffer_id" (-1)).isSome)

/-- The controller: is the text passed on to the receiver thread? FrameReceiverController.cpp:971-983. -/
def passesOn (T : Times) (level2 : Bool) (j : Option Json) : Bool :=
  match message T j with
  | .ok m => decide (m.type = .notify) && decide (m.val = .frameRelease) && logs level2 m
  | _ => false

/-- The receiver thread and a release notification, FrameReceiverRxThread.cpp:228-319: the buffer that is queued. -/
def released (T : Times) (j : Option Json) : Out Int :=
  match message T j with
  | .ok m =>
    if m.type = .notify ∧ m.val = .frameRelease then
      match intParam m "buffer_id" (-1) with
      | none => .refused
      | some i => if i = -1 then .refused else .ok i
    else .refused
  | .refused => .refused
  | .ends => .ends

/-- A text on the frame release channel. -/
def onRelease (T : Times) (level2 : Bool) (j : Option Json) (s : St) : St :=
  if passesOn T level2 j then
    match released T j with
    | .ok i => { s with queue := s.queue ++ [i] }
    | .refused => s
    | .ends => { s with rxEnded := true }
  else s

/-- The first packet of a frame: the decoder takes the next empty buffer and asks for its address, DummyUDPFrameDecoder.cpp:228-246. -/
def onPacket (s : St) : St :=
  match s.queue with
  | [] => s
  | i :: q => if addressable s.buffers i then { s with queue := q } else { s with queue := q, rxEnded := true }

/-- A frame that is ready, SharedMemoryController.cpp:172-207. -/
def readyFrame (m : Msg) (s : St) : St :=
  match intParam m "buffer_id" (-1) with
  | none => s
  | some i =>
    if i = -1 then s
    else match s.proc with
      | none => s
      | some n =>
        match intParam m "frame" 0 with
        | none => s
        | some _ => if addressable n i then { s with frames := i :: s.frames } else { s with procEnded := true }

/-- The configuration of the shared memory, SharedMemoryController.cpp:208-221 and 95-115. -/
def bufferConfig (m : Msg) (s : St) : St :=
  match (getParam m.params "shared_buffer_name".toList).bind Json.asStr with
  | none => s
  | some name =>
    match s.names name with
    | some n => { s with proc := some n }
    | none => { s with proc := none, procEnded := true }

/-- A text on the frame ready channel of the processor, SharedMemoryController.cpp:161-238. -/
def onReady (T : Times) (j : Option Json) (s : St) : St :=
  match message T j with
  | .ok m =>
    if m.type = .notify ∧ m.val = .frameReady then readyFrame m s
    else if m.type = .notify ∧ m.val = .bufferConfig then bufferConfig m s
    else s
  | _ => s

/-- The buffers of new shared memory, precharged: FrameReceiverController.cpp:1024-1041, FrameReceiverRxThread.cpp:283-302. -/
def precharged (n : Nat) : List Int := (List.range n).map Int.ofNat

inductive Ev
  | release (level2 : Bool) (j : Option Json)
  | packet
  | ready (j : Option Json)
  | remake (name : Str) (n : Nat)        -- a configuration of the receiver: a new decoder and new shared memory

/-- New shared memory under a name. -/
def remade (name : Str) (n : Nat) (s : St) : St :=
  { s with buffers := n, queue := precharged n, names := fun x => if x = name then some n else s.names x }

def step (T : Times) (s : St) : Ev → St
  | .release b j => onRelease T b j s
  | .packet => onPacket s
  | .ready j => onReady T j s
  | .remake name n => remade name n s

def run (T : Times) (s : St) (l : List Ev) : St := l.foldl (step T) s

end Verif.Notices
