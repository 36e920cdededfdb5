import Verif.Model.Decoder
import Verif.Model.Pipeline
import Verif.Model.Placement
import Verif.Model.Acquisition
/-
Model of the whole way of an image: from the packets of the detector, through the receiver, the frame buffer it shares with the
processor, the process plugin of the detector and the plugins behind it, into a dataset of a file.
Source: /repo/cpp/frameReceiver/src/DummyUDPFrameDecoder.cpp: initialise_frame_header 299-311, get_next_payload_buffer 321-329,
process_packet 355-384; FrameReceiverUDPRxThread.cpp handle_receive_socket 99-137 (payloads are received at the place of their
packet); /repo/cpp/frameProcessor/src/SharedMemoryController.cpp (frames are the buffers handed on, in that order);
DummyUDPProcessPlugin.cpp process_frame 205-278; OffsetAdjustmentPlugin.cpp process_frame 40-44; Acquisition.cpp process_frame
84-130, check_frame_valid 413-490, adjust_frame_offset 594-609.

The parts are those of Model/Decoder, Model/DummyProcess, Model/Pipeline, Model/Placement and Model/Layout; here is only what
joins them. A buffer does not change from when it is handed on until it is returned (Props/Decoder.lean, C31). There is one
file (`blocks_per_file` 0), and one frame to a chunk. Plugins that adjust the frame offset are the number they add together.
-/
namespace Verif.EndToEnd
open Verif.Decoder (Ready)

structure Setup where
  rx : Decoder.Cfg
  image : DummyProcess.Cfg
  codec : Pipeline.Codec
  way : List Pipeline.Stage
  geom : Placement.Geom
  edge : Bool                          -- see `Layout.takes`
  dims : List Nat                      -- the definition of the dataset
  dtype : Sum.DType
  comp : Pipeline.Comp
  bytes : Nat → List Nat               -- the bytes of a payload
  old : Ready → Nat → Nat              -- what else the memory of a buffer holds
  adj : Int := 0                       -- what plugins on the way add to the frame offset

/-- The payload part of a buffer: packet `k` was received at `k` times the size of packets, DummyUDPFrameDecoder.cpp:321-329 and
FrameReceiverUDPRxThread.cpp:99-137. -/
def memory (s : Setup) (r : Ready) : DummyProcess.Buf where
  size := s.rx.packets * s.rx.size
  data := fun i => (s.bytes (r.buf.pay (i / s.rx.size))).getD (i % s.rx.size) (s.old r i)

/-- The header of a buffer, DummyUDPFrameDecoder.cpp:299-311, 288 and 355. -/
def header (s : Setup) (r : Ready) : DummyProcess.Header where
  frameNumber := r.buf.frame
  expected := s.rx.packets
  received := r.buf.received
  packetSize := s.rx.size
  state := fun k => if k ∈ r.buf.got then 1 else 0

/-- The frame the process plugin makes of a buffer; `none`: undefined behaviour. -/
def made (s : Setup) (r : Ready) : Option Pipeline.Fr :=
  Pipeline.ofDummy (DummyProcess.processFrame s.image (header s r) (memory s r) 0).1

/-- `check_frame_valid`, Acquisition.cpp:413-490, for the one dataset. -/
def valid (s : Setup) (f : Pipeline.Fr) : Bool :=
  decide (f.comp ≠ .unknown) && decide (f.comp = s.comp) && decide (f.dtype ≠ .rawUnknown) && decide (f.dtype = s.dtype) &&
    decide (f.dims = s.dims)

/-- The frame has an offset and belongs to this process, Acquisition.cpp:93-103; no offset: a `range_error`, caught in
`process_frame`. -/
def acceptsAt (s : Setup) : Option Nat → Bool
  | none => false
  | some off => Placement.acceptsOffset s.geom off

def accepts (s : Setup) (number : Nat) : Bool := acceptsAt s (Acq.adjustOffset number s.adj)

/-- The offset of a frame that has one. -/
def offset (s : Setup) (number : Nat) : Nat := (Acq.adjustOffset number s.adj).getD 0

/-- `process_frame` of the acquisition, Acquisition.cpp:84-130: frames that are not valid, have no offset or belong to another
process are errors, and not written. -/
def acquire (s : Setup) (number : Nat) (f : Pipeline.Fr) (d : Layout.Ds Nat) : Layout.Ds Nat :=
  if valid s f && accepts s number then
    (Layout.write s.edge d 1 (Placement.offsetInFile s.geom (offset s number)) f.image).1
  else d

/-- What happens at the end of the way; `none`: undefined behaviour, or an exception in the thread of a plugin. -/
def arrive (s : Setup) (number : Nat) (d : Layout.Ds Nat) : Pipeline.Res → Option (Layout.Ds Nat)
  | .pushed f => some (acquire s number f d)
  | .dropped => some d
  | .threw => none
  | .ub => none

/-- A buffer handed on, along the plugins. -/
def sent (s : Setup) (r : Ready) : Option Pipeline.Res := (made s r).map (Pipeline.run s.codec s.way)

/-- A buffer handed on, to the file. -/
def deliver (s : Setup) (d : Layout.Ds Nat) (r : Ready) : Option (Layout.Ds Nat) :=
  (sent s r).bind (arrive s r.buf.frame d)

/-- All buffers handed on, in turn. -/
def deliverAll (s : Setup) (d : Layout.Ds Nat) : List Ready → Option (Layout.Ds Nat)
  | [] => some d
  | r :: l => (deliver s d r).bind (fun d => deliverAll s d l)

end Verif.EndToEnd
