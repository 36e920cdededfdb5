/-!
Receiving frames over TCP.

* cpp/frameReceiver/src/FrameReceiverTCPRxThread.cpp: `handle_receive_socket` 106-121
* cpp/frameReceiver/src/DummyTCPFrameDecoder.cpp: `get_next_message_buffer` 78-91, `process_message` 119-132,
  `get_next_message_size` 134-136, `reset_statistics` 47-54
* cpp/common/src/SharedBufferManager.cpp: `get_buffer_address` 104-113

The loop reads until a whole message is there, so `process_message` only ever sees whole frames and `read_so_far_` stays 0
(it is part of the state only through that). `receive_state_` is never assigned, so every message gets the next buffer.
Sockets are blocking. Bytes are natural numbers.
-/
namespace Verif.Tcp

/-- What the reads of a socket find, in order. -/
inductive Rd
  | data (bs : List Nat)   -- bytes that have arrived together
  | eof                    -- the peer has closed the connection: 0 bytes, now and ever after
  | err                    -- an error or an interruption: -1
deriving DecidableEq, Repr

inductive Out
  | ok
  | blocked                -- `read` does not return before more bytes arrive
  | endless                -- the loop never ends
  | thrown                 -- an exception leaves the handler
deriving DecidableEq, Repr

/-- The loop of lines 114-119 with the bytes stored so far: how it ends, the bytes stored, what is left on the socket. An error
subtracts 1 from the number of bytes (which wraps when it is 0, ending the loop) and from the address. -/
def loop (size : Nat) : List Rd → List Nat → Out × List Nat × List Rd
  | l, acc =>
    if size ≤ acc.length then (.ok, acc, l)
    else match l with
      | [] => (.blocked, acc, [])
      | .data bs :: l =>
        if acc.length + bs.length ≤ size then loop size l (acc ++ bs)
        else (.ok, acc ++ bs.take (size - acc.length), .data (bs.drop (size - acc.length)) :: l)
      | .eof :: l => (.endless, acc, .eof :: l)
      | .err :: l => if acc = [] then (.thrown, [], l) else loop size l acc.dropLast

structure Cfg where
  size : Nat := 1000       -- `frame_size_`
  count : Nat := 5         -- `num_buffers_` of the decoder
  buffers : Nat            -- buffers of the shared memory

structure St where
  last : Nat := 0                       -- `current_frame_buffer_id_`; 0 in the beginning, DummyTCPFrameDecoder.h:14
  stores : List (Nat × List Nat) := []  -- frames stored: buffer and bytes, oldest first
  handed : List Nat := []               -- buffers handed on through `ready_callback_`
  sock : Nat → List Rd

/-- Lines 80-87. -/
def nextId (c : Cfg) (i : Nat) : Nat := if c.count ≤ i + 1 then 0 else i + 1

/-- A message is read into buffer `b`. -/
def readInto (c : Cfg) (s : St) (i b : Nat) : St × Out :=
  if c.buffers ≤ b then ({ s with last := b }, .thrown)
  else match loop c.size (s.sock i) [] with
    | (.ok, bs, l) => ({ s with last := b, stores := s.stores ++ [(b, bs)], sock := fun j => if j = i then l else s.sock j }, .ok)
    | (o, _, l) => ({ s with last := b, sock := fun j => if j = i then l else s.sock j }, o)

/-- `handle_receive_socket` for socket `i`. The result of `process_message` is not used, and no frame is handed on. -/
def handle (c : Cfg) (s : St) (i : Nat) : St × Out := readInto c s i (nextId c s.last)

/-- `reset_statistics`, called by the main thread: the number of the buffer is reset as well (lines 51 and 53; the other members
are not used). -/
def resetStats (s : St) : St := { s with last := 0 }

/-- The same with resets by the main thread in the middle of it: before the address of the buffer is looked up (line 87), and
after. -/
def handleMid (c : Cfg) (s : St) (i : Nat) (early late : Bool) : St × Out :=
  let r := readInto c s i (if early then 0 else nextId c s.last)
  if late then (resetStats r.1, r.2) else r

/-- Handlers called one after the other, until one does not return normally. -/
def run (c : Cfg) (s : St) : List Nat → St × Out
  | [] => (s, .ok)
  | i :: l => match handle c s i with
    | (s, .ok) => run c s l
    | r => r

end Verif.Tcp
