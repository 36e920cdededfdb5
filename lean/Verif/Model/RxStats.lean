/-!
The statistics of the frame receiver and their reset.

* cpp/frameReceiver/src/FrameReceiverController.cpp: `handle_rx_channel` 926 (frames received, and the status of the thread is
  stored), `handle_frame_release_channel` 985, `store_rx_thread_status` 1081-1085, `get_status` 1094-1133, `reset_statistics` 1216-1231
* cpp/frameReceiver/src/FrameReceiverRxThread.cpp: `buffer_monitor_timer` 369-380, `fill_status_params` 389-399
* cpp/frameReceiver/src/FrameDecoder.cpp: `reset_statistics` 213-219; DummyUDPFrameDecoder.cpp: 237, 440 (the counters), 473-481

The counters of the decoder belong to the receiver thread and are set to 0 by the main thread; there is no lock. One of them stands
for all of them (frames timed out, frames dropped, packets lost, ...; they are treated alike). An increment is a load and a
store, as compiled; in C++ the race is undefined, and this is what the hardware does with it. Messages from the receiver thread
to the main thread keep their order. `epoch`, `count`, `mixed` and those in a message are not in the code: the number of resets,
the increments since the last one, and whether it came in the middle of an increment.
-/
namespace Verif.RxStats

/-- A status message of the receiver thread. -/
structure Msg where
  value : Nat          -- the counter
  epoch : Nat
  count : Nat
  mixed : Bool
deriving DecidableEq, Repr

structure St where
  counter : Nat := 0              -- `unsigned int`
  busy : Option Nat := none       -- the receiver thread has loaded the counter
  queue : List Msg := []          -- messages on their way
  stored : Option Msg := none     -- `rx_thread_status_`
  received : Nat := 0             -- `frames_received_`
  released : Nat := 0             -- `frames_released_`
  out : Nat := 0                  -- frames that were received and not yet released
  epoch : Nat := 0
  count : Nat := 0
  mixed : Bool := false
deriving DecidableEq, Repr

inductive Ev
  | load             -- the receiver thread counts: load
  | store            -- and store
  | monitor          -- it sends its status
  | deliver          -- the main thread takes the next status
  | ready            -- a frame is ready
  | release          -- a frame is released by the processor
  | reset            -- the statistics are reset
deriving DecidableEq, Repr

/-- One step; one that is not possible changes nothing. -/
def step (s : St) : Ev → St
  | .load => if s.busy = none then { s with busy := some s.counter } else s
  | .store =>
    match s.busy with
    | none => s
    | some v => { s with busy := none, counter := (v + 1) % 4294967296, count := s.count + 1 }
  | .monitor => if s.busy = none then { s with queue := s.queue ++ [⟨s.counter, s.epoch, s.count, s.mixed⟩] } else s
  | .deliver =>
    match s.queue with
    | [] => s
    | m :: l => { s with queue := l, stored := some m }
  | .ready => { s with received := (s.received + 1) % 4294967296, out := s.out + 1 }
  | .release => if s.out = 0 then s else { s with released := (s.released + 1) % 4294967296, out := s.out - 1 }
  | .reset => { s with counter := 0, received := 0, released := 0, epoch := s.epoch + 1, count := 0, mixed := s.busy.isSome }

def run (s : St) (es : List Ev) : St := es.foldl step s

/-- What a status request tells of the counter: 0 if there is no status of the thread yet. -/
def shown (s : St) : Nat :=
  match s.stored with
  | none => 0
  | some m => m.value

end Verif.RxStats
