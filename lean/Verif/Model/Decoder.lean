import Verif.Model.Times
/-
Model of the UDP frame decoder and its base class.
Source: /repo/cpp/frameReceiver/src/DummyUDPFrameDecoder.cpp: constructor 24-46, init 87-130,
get_frame_buffer_size 161-166, process_packet_header 215-289, initialise_frame_header 299-311,
get_next_payload_buffer 321-329, process_packet 355-384, monitor_buffers 393-448, reset_statistics 473-481, elapsed_ms 515-522;
FrameDecoder.cpp: push_empty_buffer 101-104, drop_all_buffers 173-190, reset_statistics 213-219; FrameReceiverUDPRxThread.cpp:
handle_receive_socket 99-137; DummyUDPDefinitions.h.

One step is one packet (header, payload, bookkeeping, all in the receive thread), one run of the buffer monitor,
or one buffer coming back. Frame numbers are `uint32_t` values (the code keeps them in an `int`, -1 being
4294967295). Payloads are opaque values, and every packet has its full length. Times are nanoseconds. The map of frames is a list, newest first; the order in
which frames that time out together are handed on (by signed frame number in the code) is not modelled.
-/
namespace Verif.Decoder

/-- `max_packets`, `max_packet_size`, `sizeof(FrameHeader)`. -/
def maxPackets : Nat := 4195
def maxPacketSize : Nat := 8964
def headerSize : Nat := 4240
/-- `current_frame_seen_ = -1`. -/
def noFrame : Nat := 4294967295

structure Cfg where
  packets : Nat       -- udp_packets_per_frame_
  size : Nat          -- udp_packet_size_
  buffers : Nat       -- get_num_buffers() of the buffer manager
  timeout : Nat       -- frame_timeout_ms_
deriving DecidableEq, Repr

/-- `init`: other values are refused, lines 100-120. -/
def Cfg.accepted (c : Cfg) : Bool := decide (c.packets ≤ maxPackets) && decide (c.size ≤ maxPacketSize)

/-- `get_frame_buffer_size`. -/
def Cfg.bufferSize (c : Cfg) : Nat := headerSize + c.packets * c.size

/-- `max_frame_size`, the size of the scratch buffer for dropped frames. -/
def scratchSize : Nat := headerSize + maxPacketSize * maxPackets

inductive FState
  | incomplete | complete | timedout
deriving DecidableEq, Repr

/-- Where `current_frame_buffer_` points to. -/
inductive Loc
  | shared (b : Nat)
  | scratch
deriving DecidableEq, Repr

/-- A frame buffer: the header and the payloads. -/
structure Buf where
  frame : Nat := 0
  state : FState := .incomplete
  start : Int := 0
  received : Nat := 0                  -- uint32_t
  got : List Nat := []                 -- indices with packet_state 1
  pay : Nat → Nat := fun _ => 0

structure State where
  empty : List Nat := []               -- empty_buffer_queue_
  map : List (Nat × Nat) := []         -- frame_buffer_map_
  seen : Nat := noFrame                -- current_frame_seen_
  bufId : Nat := noFrame               -- current_frame_buffer_id_, -1 at first
  cur : Option Loc := none             -- current_frame_buffer_, current_frame_header_
  dropping : Bool := false             -- dropping_frame_data_
  bufs : Loc → Buf := fun _ => {}
  received : Nat := 0                  -- packets_received_, uint32_t
  dropped : Nat := 0                   -- packets_dropped_
  lost : Nat := 0                      -- packets_lost_
  framesDropped : Nat := 0             -- frames_dropped_, unsigned int
  framesTimedout : Nat := 0            -- frames_timedout_

structure Packet where
  frame : Nat
  num : Nat                            -- packet_number_flags & packet_number_mask
  pay : Nat := 0
deriving DecidableEq, Repr

def lookup (m : List (Nat × Nat)) (f : Nat) : Option Nat :=
  match m with
  | [] => none
  | (k, b) :: m => if k = f then some b else lookup m f

def erase (m : List (Nat × Nat)) (f : Nat) : List (Nat × Nat) := m.filter (fun x => x.1 ≠ f)

/-- Change one buffer. -/
def setBuf (s : State) (l : Loc) (b : Buf) : State := { s with bufs := fun k => if k = l then b else s.bufs k }

/-- `initialise_frame_header`: the payload stays. -/
def initHeader (s : State) (l : Loc) (now : Int) : State :=
  setBuf s l { s.bufs l with frame := s.seen, state := .incomplete, start := now, received := 0, got := [] }

/-- Lines 231-239: no buffer for the first packet of a frame. -/
def dropFrame (s : State) (f : Nat) : State :=
  { s with seen := f, cur := some .scratch, dropping := true,
           framesDropped := if s.dropping then s.framesDropped else (s.framesDropped + 1) % 4294967296 }

/-- Lines 243-259: a buffer for the first packet of a frame. -/
def openFrame (s : State) (f b : Nat) (q : List Nat) : State :=
  { s with seen := f, empty := q, map := (f, b) :: s.map, cur := some (.shared b), bufId := b, dropping := false }

/-- Lines 223-274: find the buffer. `none`: `get_buffer_address` throws. -/
def select (c : Cfg) (s : State) (f : Nat) (now : Int) : Option State :=
  if f = s.seen then some s
  else match lookup s.map f with
    | some b => if b < c.buffers then some { s with seen := f, cur := some (.shared b), bufId := b } else none
    | none =>
      match s.empty with
      | [] => some (initHeader (dropFrame s f) .scratch now)
      | b :: q => if b < c.buffers then some (initHeader (openFrame s f b q) (.shared b) now) else none

/-- The buffer at `l` reaches to this offset. -/
def capacity (c : Cfg) : Loc → Nat
  | .shared _ => c.bufferSize
  | .scratch => scratchSize

/-- The payload of packet `num` ends inside the buffer. -/
def fits (c : Cfg) (l : Loc) (num : Nat) : Bool :=
  decide (headerSize + c.size * num + c.size ≤ capacity c l)

/-- Line 288, and the payload received at `get_next_payload_buffer`. -/
def stored (b : Buf) (p : Packet) : Buf :=
  { b with got := if p.num ∈ b.got then b.got else p.num :: b.got, pay := fun k => if k = p.num then p.pay else b.pay k }

/-- Lines 277-285. -/
def countPacket (s : State) : State :=
  if s.dropping then { s with dropped := (s.dropped + 1) % 4294967296 }
  else { s with received := (s.received + 1) % 4294967296 }

/-- Lines 277-288, and the payload. `none`: undefined (a null pointer, or a write outside the array or the
buffer). -/
def store (c : Cfg) (s : State) (p : Packet) : Option State :=
  match s.cur with
  | none => none
  | some l =>
    if p.num ≥ maxPackets ∨ fits c l p.num = false then none
    else some (countPacket (setBuf s l (stored (s.bufs l) p)))

/-- A frame handed on by the ready callback: buffer, frame number, and the buffer at that time. -/
structure Ready where
  buffer : Nat
  frame : Nat
  buf : Buf

/-- Lines 373-380. -/
def handOn (s : State) (b : Buf) : State × List Ready :=
  ({ s with map := erase s.map s.seen, seen := noFrame }, [⟨s.bufId, b.frame, b⟩])

/-- Lines 355-356. -/
def counted (b : Buf) : Buf := { b with received := (b.received + 1) % 4294967296 }

def completed (b : Buf) : Buf := { b with state := .complete }

/-- `process_packet`. -/
def finish (c : Cfg) (s : State) : Option (State × List Ready) :=
  match s.cur with
  | none => none
  | some l =>
    if (counted (s.bufs l)).received = c.packets then
      if s.dropping then some (setBuf s l (completed (counted (s.bufs l))), [])
      else some (handOn (setBuf s l (completed (counted (s.bufs l)))) (completed (counted (s.bufs l))))
    else some (setBuf s l (counted (s.bufs l)), [])

/-- One packet. -/
def packet (c : Cfg) (s : State) (p : Packet) (now : Int) : Option (State × List Ready) :=
  (select c s p.frame now).bind (fun s => (store c s p).bind (finish c))

/-- A clock reading as a double, `((double) tv_sec * 1000000000) + tv_nsec`, lines 518-519. Doubles are integers rounded to
53 bits, as in Model/Times. -/
def dbl (t : Int) : Int := Times.rndInt (Times.rndInt (t / 1000000000 * 1000000000) + t % 1000000000)

/-- `elapsed_ms`; `none`: the conversion to `unsigned int` is undefined. The quotient is not rounded: see `quotient_floor` in
Props/DecoderTime. -/
def elapsedMs (start now : Int) : Option Nat :=
  if Times.rndInt (dbl now - dbl start) ≤ -1000000 then none
  else if 4294967296000000 ≤ Times.rndInt (dbl now - dbl start) then none
  else some (Int.tdiv (Times.rndInt (dbl now - dbl start)) 1000000).toNat

/-- Lines 415-428 for the entry (f, b). -/
def timeOut (c : Cfg) (s : State) (f b : Nat) : State × Ready :=
  let h := { s.bufs (.shared b) with state := .timedout }
  let s := setBuf s (.shared b) h
  ({ s with lost := (s.lost + (c.packets + 4294967296 - h.received) % 4294967296) % 4294967296,
            framesTimedout := (s.framesTimedout + 1) % 4294967296, map := erase s.map f }, ⟨b, f, h⟩)

/-- The loop of `monitor_buffers`. -/
def monitorLoop (c : Cfg) (now : Int) : List (Nat × Nat) → State → Option (State × List Ready)
  | [], s => some (s, [])
  | (f, b) :: m, s =>
    if b < c.buffers then
      match elapsedMs (s.bufs (.shared b)).start now with
      | none => none
      | some ms =>
        if ms > c.timeout then
          let t := timeOut c s f b
          (monitorLoop c now m t.1).map (fun r => (r.1, t.2 :: r.2))
        else monitorLoop c now m s
    else none

/-- `monitor_buffers`. -/
def monitor (c : Cfg) (s : State) (now : Int) : Option (State × List Ready) := monitorLoop c now s.map s

/-- `push_empty_buffer`. -/
def push (s : State) (b : Nat) : State := { s with empty := s.empty ++ [b] }

/-- `drop_all_buffers`, and the precharge of the `n` buffers of a new manager, FrameReceiverController.cpp:622-649
and FrameReceiverRxThread.cpp:284-302. The number of the current frame is not reset; its buffer is no longer
mapped into the process, so that using it is undefined. -/
def recharge (s : State) (n : Nat) : State :=
  { s with empty := List.range n, map := [], cur := if s.cur = some .scratch then s.cur else none }

/-- `reset_statistics`, here between two packets. -/
def resetStats (s : State) : State :=
  { s with received := 0, dropped := 0, lost := 0, framesDropped := 0, framesTimedout := 0 }

end Verif.Decoder
