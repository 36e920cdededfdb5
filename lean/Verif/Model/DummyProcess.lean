/-
Model of the dummy detector's process plugin.
Source: /repo/cpp/frameProcessor/src/DummyUDPProcessPlugin.cpp 205-326, common/include/
DummyUDPDefinitions.h 18-45 (`FrameHeader`, `max_packets`).

A frame is its header and the payload behind it. Overflow of an `int` is undefined; the conversion of a size to `int` is
modulo 2^32. Memory blocks are their size and a function from position to byte.
-/
namespace Verif.DummyProcess

/-- `max_packets`. -/
def maxPackets : Nat := 4195

structure Header where
  frameNumber : Nat
  expected : Nat        -- uint32_t total_packets_expected
  received : Nat        -- uint32_t total_packets_received
  packetSize : Nat
  state : Nat → Nat     -- packet_state, meaningful below maxPackets

structure Buf where
  size : Nat
  data : Nat → Nat

/-- `int hdr_packets_lost = expected - received`, line 291: 32-bit unsigned difference read as signed. -/
def hdrLost (h : Header) : Int :=
  let d : Nat := (h.expected + 2 ^ 32 - h.received) % 2 ^ 32
  if d < 2 ^ 31 then (d : Int) else (d : Int) - 2 ^ 32

/-- `memset(payload + pos, 0, n)`. -/
def zeroed (d : Nat → Nat) (pos n : Nat) : Nat → Nat := fun b => if pos ≤ b ∧ b < pos + n then 0 else d b

/-- The loop over packets, lines 302-312, after `n` iterations: payload and `packets_lost`. `none`: undefined,
the state array or the payload is left. -/
def scan (h : Header) (p : Buf) : Nat → Option ((Nat → Nat) × Nat)
  | 0 => some (p.data, 0)
  | n + 1 =>
    match scan h p n with
    | none => none
    | some (d, lost) =>
      if n ≥ maxPackets then none
      else if h.state n = 0 then
        if h.packetSize * n + h.packetSize ≤ p.size then some (zeroed d (h.packetSize * n) h.packetSize, lost + 1)
        else none
      else some (d, lost)

/-- `packets_lost_ += packets_lost`, line 319; `none`: the `int` overflows. -/
def count (b : Buf) (packetsLost lost : Nat) : Option (Buf × Nat) := if packetsLost + lost < 2 ^ 31 then some (b, packetsLost + lost) else none

/-- `process_lost_packets`, lines 285-326: the payload and the new value of `packets_lost_`. -/
def processLost (h : Header) (p : Buf) (packetsLost : Nat) : Option (Buf × Nat) :=
  if hdrLost h > 0 then
    match scan h p h.expected with
    | some (d, lost) => count { p with data := d } packetsLost lost
    | none => none
  else some (p, packetsLost)

/-- Plugin configuration. -/
structure Cfg where
  width : Int
  height : Int
  copyFrame : Bool

/-- What is pushed: an image in its own block, or the incoming frame with offset and size set. -/
inductive Out
  | copied (frameNumber : Nat) (dims : List Int) (image : Buf)
  | inPlace (frameNumber : Nat) (dims : List Int) (imageSize : Int) (payload : Buf)
  | ub

/-- `image_width_ * image_height_`, line 240; `none`: the `int` overflows. -/
def product (c : Cfg) : Option Int := if -(2 ^ 31) ≤ c.width * c.height ∧ c.width * c.height < 2 ^ 31 then some (c.width * c.height) else none

/-- `set_image_size`, Frame.cpp:143: a size of less than 2^32 as `int`. -/
def toInt (n : Nat) : Int := if n < 2 ^ 31 then n else (n : Int) - 2 ^ 32

/-- The image of `n` pixels, lines 240-276. -/
def outputSized (c : Cfg) (frameNumber : Nat) (p : Buf) (n : Nat) : Out :=
  if c.copyFrame then
    if n * 2 ≤ p.size then .copied frameNumber [c.height, c.width] { size := n * 2, data := p.data }
    else .ub
  else .inPlace frameNumber [c.height, c.width] (toInt (n * 2)) p

/-- The part of `process_frame` after the lost packets, lines 221-276. A negative product becomes a huge
`size_t`, which neither can be allocated nor lies in the frame. -/
def output (c : Cfg) (frameNumber : Nat) (p : Buf) : Out :=
  match product c with
  | none => .ub
  | some n => if n < 0 then .ub else outputSized c frameNumber p n.toNat

/-- `process_frame` given the result of `process_lost_packets`. -/
def outputOf (c : Cfg) (frameNumber packetsLost : Nat) : Option (Buf × Nat) → Out × Nat
  | none => (.ub, packetsLost)
  | some (p, lost) => (output c frameNumber p, lost)

/-- `process_frame`, lines 205-277. -/
def processFrame (c : Cfg) (h : Header) (p : Buf) (packetsLost : Nat) : Out × Nat :=
  outputOf c h.frameNumber packetsLost (processLost h p packetsLost)

end Verif.DummyProcess
