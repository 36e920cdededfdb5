import Verif.Model.Decoder
/-
Model of the reception of datagrams of any length by the UDP receiver thread and the UDP frame decoder.
Source: /repo/cpp/frameReceiver/src/FrameReceiverUDPRxThread.cpp handle_receive_socket 99-137;
DummyUDPFrameDecoder.cpp: constructor 41 (the header buffer is not initialised), process_packet_header 215-289,
get_next_payload_buffer 321-329, get_next_payload_size 337-340, get_frame_number 489-492, get_packet_number 500-504;
/repo/cpp/common/include/DummyUDPDefinitions.h 25, 30-34.

The decoder is that of Model/Decoder. There the payload of a packet is a value, here it is the number of the datagram, and beside
it the bytes of the buffers are kept. The number of bytes received is given to the decoder by both calls, 113 and 136, and is not
used there. A system call that fails changes nothing in memory and is otherwise taken for a datagram; here it is a datagram of no
bytes. Both calls see the same datagram.
-/
namespace Verif.Datagram
open Verif.Decoder

/-- `sizeof(DummyUDP::PacketHeader)`. -/
def headerBytes : Nat := 8

/-- The decoder, the buffer for the header of a packet (`none`: a byte that has not been written), the payload part of the frame
buffers, and the number of datagrams so far. -/
structure Mach where
  s : State := {}
  hdr : List (Option Nat) := List.replicate headerBytes none
  mem : Loc → Nat → Nat := fun _ _ => 0
  count : Nat := 0

/-- `recvfrom` with `MSG_PEEK`, line 112, and the first part of `recvmsg`, lines 116-118 and 132: as many bytes as there are. -/
def peek (h : List (Option Nat)) (d : List Nat) : List (Option Nat) :=
  (d.take headerBytes).map some ++ h.drop d.length

/-- A `uint32_t` in memory. -/
def le4 : List (Option Nat) → Option Nat
  | [some a, some b, some c, some d] => some (a + 256 * b + 65536 * c + 16777216 * d)
  | _ => none

/-- `get_frame_number`. -/
def frameNumber (h : List (Option Nat)) : Option Nat := le4 (h.take 4)

/-- `get_packet_number`, with the mask 0x3FFFFFFF. -/
def packetNumber (h : List (Option Nat)) : Option Nat := (le4 (h.drop 4)).map (· % 1073741824)

/-- The second part of `recvmsg`, lines 122-124 and 132: what follows the header, up to the size of packets, is received at the
place of packet `n` in the buffer. -/
def place (c : Cfg) (mem : Loc → Nat → Nat) (l : Loc) (n : Nat) (d : List Nat) : Loc → Nat → Nat := fun k j =>
  if k = l ∧ n * c.size ≤ j ∧ j < n * c.size + min (d.length - headerBytes) c.size then
    d.getD (headerBytes + (j - n * c.size)) 0
  else mem k j

/-- The memory the payload of the datagram is received into, after `process_packet_header`. -/
def target (c : Cfg) (s : State) (f : Nat) (now : Int) : Option Loc := (select c s f now).bind (·.cur)

/-- `handle_receive_socket`. `none`: undefined behaviour or an exception. -/
def receive (c : Cfg) (m : Mach) (d : List Nat) (now : Int) : Option (Mach × List Ready) :=
  (frameNumber (peek m.hdr d)).bind fun f =>
  (packetNumber (peek m.hdr d)).bind fun n =>
  (target c m.s f now).bind fun l =>
  (packet c m.s ⟨f, n, m.count⟩ now).map fun r => (⟨r.1, peek m.hdr d, place c m.mem l n d, m.count + 1⟩, r.2)

end Verif.Datagram
