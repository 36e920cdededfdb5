import Verif.Model.Simulator
/-
Model of the replaying of capture files by the UDP frame simulator.
Source: /repo/cpp/frameSimulator/src/FrameSimulatorPluginUDP.cpp: setup 37-104, prepare_packets 112-128, replay_frames
133-150; DummyUDPFrameSimulatorPlugin.cpp: extract_frames 163-207; FrameSimulatorOptions.h; DummyUDPDefinitions.h:23-33.

A packet of the file is what was captured of it and its length on the wire; bytes are numbers below 256. What is read
beyond the captured bytes is undefined. Byte order of the machine: low byte first. `sizeof(udph)` is the size of a pointer,
8 bytes, which happens to be the size of a UDP header (lines 119-121).
-/
namespace Verif.Capture
open Verif.Simulator (Raw Frame extract Sent replay)

/-- A packet of a capture file: `header->len` and the `header->caplen` bytes that are there. -/
structure Rec where
  len : Nat
  data : List Nat
deriving DecidableEq, Repr

/-- Four bytes as a number. -/
def le32 : List Nat → Nat
  | [a, b, c, d] => a + 256 * b + 65536 * c + 16777216 * d
  | _ => 0

/-- `extract_frames`, DummyUDPFrameSimulatorPlugin.cpp:166-173: the header of the datagram, with the rest. -/
def toRaw (bytes : List Nat) : Raw :=
  { frame := le32 (bytes.take 4)
    num := le32 ((bytes.drop 4).take 4) % 2 ^ 30
    sof := decide (le32 ((bytes.drop 4).take 4) / 2 ^ 31 % 2 = 1)
    eof := decide (le32 ((bytes.drop 4).take 4) / 2 ^ 30 % 2 = 1)
    data := bytes.drop 8 }

/-- `header_size`, FrameSimulatorPluginUDP.cpp:117-121: Ethernet header, `ihl` words, 8 bytes. `ihl` is the low half
of the first byte of the IP header. -/
def headerSize (r : Rec) : Option Nat := (r.data[14]?).map fun b => 14 + 4 * (b % 16) + 8

/-- `prepare_packets`, and `extract_frames` with `header->len - header_size` bytes. `none`: undefined, bytes are read
that were not captured (the header of the datagram or, lines 196-197, what is copied), or a packet comes before
any frame. -/
def prepare (frames : List Frame) (r : Rec) : Option (List Frame) :=
  match headerSize r with
  | none => none
  | some h =>
    if r.data.length < h + 8 ∨ r.data.length < r.len then none
    else extract frames (toRaw ((r.data.drop h).take (r.len - h)))

/-- `pcap_loop`: the frames, newest first. -/
def prepareAll (frames : List Frame) : List Rec → Option (List Frame)
  | [] => some frames
  | r :: rs => (prepare frames r).bind (prepareAll · rs)

/-- The frames stored for a capture file, oldest first. -/
def load (file : List Rec) : Option (List Frame) := (prepareAll [] file).map List.reverse

/-- `replay_frames`, lines 138-150: the option `frames` always has a value (its default is 1000); the loop runs
while `f < frames_to_replay`. -/
def rounds (frames : Int) : Nat := frames.toNat

/-- Setup and simulation with a capture file: what is sent. -/
def simulate (ports : Nat) (gap : Option Nat) (drop : Nat → Nat → Bool) (file : List Rec) (frames : Int) : Option (List Sent) :=
  (load file).bind fun fs => replay ports gap drop fs (rounds frames)

end Verif.Capture
