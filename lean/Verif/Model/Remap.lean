/-
Model of the shared memory of a receiver being replaced, and of a processor following it.
Source: /repo/cpp/frameReceiver/src/FrameReceiverController.cpp: configure 70-122, configure_frame_decoder 441-557,
configure_buffer_manager 594-667, configure_rx_thread 715-755, stop_rx_thread 762-775, handle_rx_channel 917-923,
handle_frame_release_channel 996-1002, notify_buffer_config 1051-1072; FrameDecoder.cpp: register_buffer_manager 76-79;
/repo/cpp/common/src/SharedBufferManager.cpp: constructors 15-80, destructor 82-88;
/repo/cpp/frameProcessor/src/SharedMemoryController.cpp: setSharedBufferManager 95-115, handleRxChannel 161-238.

A buffer manager is held by `boost::shared_ptr` in three places: the controller, the frame decoder and the receiver thread. It
is destroyed with the last of them, and its destructor removes the name of its memory, whatever object has that name by then.
Objects of shared memory are numbered; mappings keep an object alive when its name is gone. Names and types of decoders are
numbers, type 0 is "unknown". Sizes and contents of the memory are not modelled, nor that a receiver thread does not start.
The frame ready channel keeps the order of messages, and the one processor is subscribed from the start.
-/
namespace Verif.Remap

/-- A `SharedBufferManager` made by the receiver. -/
structure Mgr where
  id : Nat
  name : Nat
  obj : Nat
deriving DecidableEq, Repr

/-- Messages of the frame ready channel. -/
inductive Msg
  | config (name : Nat)      -- `MsgValNotifyBufferConfig`
  | ready (obj : Nat)        -- `MsgValNotifyFrameReady`; `obj`: the memory the frame has been put into (not in the message)
deriving DecidableEq, Repr

structure St where
  names : Nat → Option Nat := fun _ => none    -- the objects with a name
  objs : Nat := 0                              -- objects made so far
  mgrs : Nat := 0                              -- managers made so far
  type : Nat := 0                              -- `config_.decoder_type_`
  name : Nat := 0                              -- `config_.shared_buffer_name_`
  needDecoder : Bool := false
  needBuffer : Bool := false
  needRx : Bool := false
  ctrl : Option Mgr := none                    -- `buffer_manager_` of the controller
  dec : Option (Option Mgr) := none            -- `frame_decoder_`, and its `buffer_manager_`
  rx : Option Mgr := none                      -- `rx_thread_`, and its `buffer_manager_`
  over : Bool := false                         -- the receiver has ended by an exception
  pending : Nat := 0                           -- timers of `notify_buffer_config(true)`
  chan : List Msg := []
  proc : Option Nat := none                    -- the object mapped by the `sbm_` of the processor
  down : Bool := false                         -- the processor has ended by an exception
  log : List (Nat × Nat) := []                 -- frames: the memory they were put into and the memory they are read from

/-- What a configuration message asks for, and what comes of it. -/
structure Conf where
  type : Option Nat := none      -- a type of decoder
  other : Bool := false          -- another path or configuration of the decoder
  name : Option Nat := none      -- a name for the shared memory
  mem : Bool := false            -- another size of the shared memory
  thread : Bool := false         -- other settings of the receiver thread
  loads : Bool := true           -- the decoder can be loaded and initialised
  fits : Bool := true            -- the memory can be made

/-- The destructor, SharedBufferManager.cpp 82-88, if nothing holds the manager any longer. -/
def letGo (s : St) : Option Mgr → St
  | none => s
  | some m =>
    if s.ctrl = some m ∨ s.dec = some (some m) ∨ s.rx = some m then s
    else { s with names := fun n => if n = m.name then none else s.names n }

/-- `stop_rx_thread`. -/
def stopRx (s : St) : St := letGo { s with rx := none } s.rx

/-- FrameReceiverController.cpp:512, `frame_decoder_.reset()`. -/
def dropDecoder (s : St) : St := letGo { s with dec := none } s.dec.join

/-- Line 634, `buffer_manager_.reset()`. -/
def dropCtrl (s : St) : St := letGo { s with ctrl := none } s.ctrl

/-- The object of a name, made if there is none: `open_or_create`, SharedBufferManager.cpp:20. -/
def opened (s : St) (n : Nat) : Nat := (s.names n).getD s.objs

/-- Opening it. -/
def claim (s : St) : St :=
  { s with names := fun n => if n = s.name then some (opened s s.name) else s.names n
           objs := if (s.names s.name).isSome then s.objs else s.objs + 1 }

/-- Line 638: a new manager. -/
def make (s : St) : St :=
  { claim s with mgrs := s.mgrs + 1, ctrl := some ⟨s.mgrs, s.name, opened s s.name⟩ }

/-- Line 649, `register_buffer_manager`. -/
def register (s : St) : St := letGo { s with dec := some s.ctrl } s.dec.join

/-- The exception of line 638 ends the receiver, and everything is destroyed. -/
def fail (s : St) : St := { dropDecoder (claim s) with over := true }

/-- Lines 446-493: what asks for another decoder. -/
def asked (c : Conf) (s : St) : St :=
  { s with type := c.type.getD s.type, needDecoder := s.needDecoder || c.other || decide (c.type.getD s.type ≠ s.type) }

/-- Lines 498-556; `none` in the second place: an exception, which `configure` answers. A decoder that cannot be initialised
is like one that cannot be loaded. -/
def decoder (c : Conf) (s : St) : St × Bool :=
  if s.needDecoder then
    if s.type = 0 then (s, true)
    else if c.loads then
      ({ dropDecoder (stopRx s) with dec := some none, needBuffer := true, needRx := true }, true)
    else (dropDecoder (stopRx s), false)
  else (s, true)

/-- Lines 597-611. -/
def named (c : Conf) (s : St) : St :=
  { s with name := c.name.getD s.name, needBuffer := s.needBuffer || c.mem || decide (c.name.getD s.name ≠ s.name) }

/-- Lines 613-666. -/
def buffer (c : Conf) (s : St) : St :=
  if s.needBuffer then
    if s.dec.isSome then
      if c.fits then
        { register (make (dropCtrl (stopRx s))) with pending := s.pending + 1, needRx := true }
      else fail (dropCtrl (stopRx s))
    else s
  else s

/-- Lines 680-754. -/
def thread (c : Conf) (s : St) : St :=
  if (s.needRx || c.thread) && s.dec.isSome && s.ctrl.isSome then { stopRx s with rx := s.ctrl, needRx := s.needRx || c.thread }
  else { s with needRx := s.needRx || c.thread }

/-- `configure`. -/
def configure (c : Conf) (s : St) : St :=
  if (decoder c (asked c s)).2 then
    if (buffer c (named c (decoder c (asked c s)).1)).over then buffer c (named c (decoder c (asked c s)).1)
    else thread c (buffer c (named c (decoder c (asked c s)).1))
  else (decoder c (asked c s)).1

/-- The processor handles a message. -/
def take (s : St) : Msg → St
  | .config n =>
    match s.names n with
    | some o => { s with proc := some o }
    | none => { s with proc := none, down := true }
  | .ready w =>
    match s.proc with
    | some o => { s with log := s.log ++ [(w, o)] }
    | none => s                                   -- ignored

inductive Op
  | conf (c : Conf)
  | timer            -- a timer of `notify_buffer_config(true)` fires
  | request          -- the processor asks for the configuration, `MsgValCmdBufferConfigRequest`
  | frame            -- the receiver thread hands on a frame, and the controller announces it
  | take             -- the processor handles the next message

def step (s : St) : Op → St
  | .conf c => if s.over then s else configure c s
  | .timer => if s.over ∨ s.pending = 0 then s else { s with pending := s.pending - 1, chan := s.chan ++ [.config s.name] }
  | .request => if s.over then s else { s with chan := s.chan ++ [.config s.name] }
  | .frame =>
    match s.rx with
    | some m => { s with chan := s.chan ++ [.ready m.obj] }
    | none => s
  | .take =>
    match s.chan with
    | m :: l => if s.down then s else take { s with chan := l } m
    | [] => s

def run (s : St) (os : List Op) : St := os.foldl step s

end Verif.Remap
