/-
Model of the UDP frame simulator.
Source: /repo/cpp/frameSimulator/src/DummyUDPFrameSimulatorPlugin.cpp: create_frames 84-156, extract_frames 163-207;
FrameSimulatorPluginUDP.cpp: replay_frames, send_packet.
In `create` the number of pixels is a natural number, and so is the packet length; `createI` has the `int`s of the code.
Lost datagrams, times and the reading of capture files are not modelled.
-/
namespace Verif.Simulator

/-- Lines 89-99: the pixels as bytes, low byte first. -/
def image (pixels : Nat) : List Nat := (List.range pixels).flatMap (fun i => [i % 256, i / 256 % 256])

/-- A packet: header and data. -/
structure Raw where
  frame : Nat          -- frame_number, uint32_t
  num : Nat            -- packet_number_flags & packet_number_mask
  sof : Bool
  eof : Bool
  data : List Nat
deriving DecidableEq, Repr

/-- A `uint32_t` in memory, low byte first. -/
def le4 (n : Nat) : List Nat := [n % 256, n / 256 % 256, n / 65536 % 256, n / 16777216 % 256]

/-- The datagram: `frame_number`, `packet_number_flags` with the flags of DummyUDPDefinitions.h:24-25, and the data. -/
def Raw.wire (r : Raw) : List Nat :=
  le4 r.frame ++ le4 (r.num + (if r.eof then 1073741824 else 0) + (if r.sof then 2147483648 else 0)) ++ r.data

/-- Lines 119-137: the packet made from the remaining bytes. -/
def nextPacket (len frame num : Nat) (rest : List Nat) : Raw :=
  if rest.length > len then
    { frame := frame % 2 ^ 32, num := num % 2 ^ 30, sof := decide (num = 0), eof := false, data := rest.take len }
  else { frame := frame % 2 ^ 32, num := num % 2 ^ 30, sof := false, eof := true, data := rest }

/-- Lines 113-150: the packets of one frame; `none` if `fuel` rounds do not suffice. -/
def packets (len frame : Nat) : Nat → Nat → List Nat → Option (List Raw)
  | _, _, [] => some []
  | 0, _, _ :: _ => none
  | fuel + 1, num, b :: bs =>
    (packets len frame fuel (num + 1) ((b :: bs).drop (nextPacket len frame num (b :: bs)).data.length)).map
      (nextPacket len frame num (b :: bs) :: ·)

/-- A stored frame. -/
structure Frame where
  number : Nat
  packets : List Raw := []
deriving DecidableEq, Repr

/-- Lines 163-207; the frames are kept newest first. `none`: `frames_[frames_.size() - 1]` of no frames. -/
def extract (frames : List Frame) (r : Raw) : Option (List Frame) :=
  match (if r.sof then { number := r.frame } :: frames else frames) with
  | [] => none
  | f :: fs => some ({ f with packets := f.packets ++ [r] } :: fs)

def extractAll (frames : List Frame) : List Raw → Option (List Frame)
  | [] => some frames
  | r :: rs => (extract frames r).bind (extractAll · rs)

inductive Res
  | ok (frames : List Frame)    -- oldest first
  | ub
  | endless
deriving DecidableEq, Repr

/-- Lines 108-152: frames `k`, `k + 1`, ..., `k + n - 1`. -/
def createFrom (fuel pixels len : Nat) (frames : List Frame) (k : Nat) : Nat → Res
  | 0 => .ok frames.reverse
  | n + 1 =>
    match packets len k fuel 0 (image pixels) with
    | none => .endless
    | some rs =>
      match extractAll frames rs with
      | none => .ub
      | some frames => createFrom fuel pixels len frames (k + 1) n

/-- `create_frames(n)`. -/
def create (fuel pixels len n : Nat) : Res := createFrom fuel pixels len [] 0 n

/-! Sizes as given by the options, of type `int` -/

inductive ResI
  | ok (frames : List Frame)
  | ub
  | endless
  | throws                      -- std::bad_array_new_length or std::bad_alloc
deriving DecidableEq, Repr

def Res.toI : Res → ResI
  | .ok frames => .ok frames
  | .ub => .ub
  | .endless => .endless

/-- `create_frames` with the options `width`, `height` and `packet-len`. Line 89: the product overflows. Line 90: `new` of a
negative number throws. Line 100: `packet_len_ + sizeof(DummyUDPPacketHeader)` is a `size_t`, beyond all memory for packet
lengths below -8. Lines 119-142: compared as `size_t` a negative packet length is larger than any image, and all of the image
is copied into a buffer of at most 7 bytes. Line 145: the size of the packet is passed as `int`, and line 195 allocates it. -/
def createI (fuel : Nat) (width height len : Int) (n : Int) : ResI :=
  if width * height < -2147483648 ∨ 2147483648 ≤ width * height then .ub
  else if width * height < 0 then .throws
  else if len < -8 then .throws
  else if n ≤ 0 ∨ width * height = 0 then .ok []
  else if len < 0 then .ub
  else if 2147483640 ≤ len ∧ len < 2 * (width * height) then .throws
  else (create fuel (width * height).toNat len.toNat n.toNat).toI

/-! Replaying -/

structure Port where
  index : Nat := 0       -- curr_port_index
  frame : Nat := 0       -- curr_frame
deriving DecidableEq, Repr

/-- `send_packet`: the port it is sent to. -/
def nextPort (ports : Nat) (s : Port) (n : Nat) : Port :=
  if n = s.frame then s else { index := if s.index + 1 < ports then s.index + 1 else 0, frame := n }

/-- A datagram: destination port (its index), and packet. -/
structure Sent where
  port : Nat
  packet : Raw
deriving DecidableEq, Repr

/-- The packets of one frame; `drop f p` decides about packet `p` in the `f`th round, `gap` is the packet gap. `none`: a
division by zero. -/
def sendFrame (ports : Nat) (gap : Option Nat) (drop : Nat → Bool) (n : Nat) : Port → Nat → List Raw → Option (Port × List Sent)
  | s, _, [] => some (s, [])
  | s, p, r :: rs =>
    if drop p then sendFrame ports gap drop n s (p + 1) rs
    else if gap = some 0 then none
    else (sendFrame ports gap drop n (nextPort ports s n) (p + 1) rs).map
      (fun x => (x.1, ⟨(nextPort ports s n).index, r⟩ :: x.2))

/-- `replay_frames`: rounds `f`, ..., `f + k - 1`. -/
def replayFrom (ports : Nat) (gap : Option Nat) (drop : Nat → Nat → Bool) (frames : List Frame) :
    Port → Nat → Nat → Option (List Sent)
  | _, _, 0 => some []
  | s, f, k + 1 =>
    match frames[f % frames.length]? with
    | none => some []
    | some fr =>
      match sendFrame ports gap (drop f) (f % frames.length) s 0 fr.packets with
      | none => none
      | some (s', l) => (replayFrom ports gap drop frames s' (f + 1) k).map (l ++ ·)

def replay (ports : Nat) (gap : Option Nat) (drop : Nat → Nat → Bool) (frames : List Frame) (k : Nat) : Option (List Sent) :=
  replayFrom ports gap drop frames {} 0 k

end Verif.Simulator
