/-!
The endpoints that the channels of the frame receiver are bound to.

* cpp/frameReceiver/src/FrameReceiverController.cpp: `configure` 69-121 (only that an exception gives a negative reply),
  `configure_ipc_channels` 194-268, `setup_control_channel` 274-293, `setup_rx_channel` 303-320, `setup_frame_ready_channel`
  330-344, `setup_frame_release_channel` 354-375, `unbind_channel` 388-407
* cpp/common/src/IpcChannel.cpp: `bind` 107-122, `unbind` 144-152, `has_bound_endpoint` 174-177
* cpp/frameReceiver/include/FrameReceiverConfig.h: 63-66 (no endpoints at first)

Endpoints are taken to be without wildcards, so that an endpoint is its own address (wildcards: C96). An address can be bound only
once; whether the system lets it be bound otherwise is the environment. The flags of the configuration status are the subject of
C37 and C64. The timer of a deferred unbinding fires once; timers fire in the order in which they were registered, all have the
same delay of a second.
-/
namespace Verif.RxEndpoints

/-- The channels, in the order in which they are configured. -/
inductive Ch | ctrl | rx | ready | release
deriving DecidableEq, Repr

structure St where
  cfg : Ch → String                 -- `config_.…_endpoint_`
  bound : Ch → List String          -- keys of `bound_endpoints_`, latest first
  timers : List String              -- endpoints that a timer will unbind from the control channel

/-- Replacing one value. -/
def put {α} (f : Ch → α) (c : Ch) (x : α) : Ch → α := fun d => if d = c then x else f d

/-- `unbind` and the removal of the entry, IpcChannel.cpp:144-152. -/
def unbind (s : St) (c : Ch) (ep : String) : St := { s with bound := put s.bound c ((s.bound c).erase ep) }

/-- `unbind_channel`, 388-407: deferred for the control channel, at once for the others. -/
def unbindChannel (s : St) (c : Ch) (ep : String) : St :=
  if ep ∈ s.bound c then
    if c = .ctrl then { s with timers := s.timers ++ [ep] } else unbind s c ep
  else s

/-- The address is bound already, by one of the channels. -/
def taken (s : St) (ep : String) : Bool :=
  decide (ep ∈ s.bound .ctrl) || decide (ep ∈ s.bound .rx) || decide (ep ∈ s.bound .ready) || decide (ep ∈ s.bound .release)

/-- Binding the channel to a new endpoint and storing it; false: `setup_…_channel` throws. `can` says what the system lets be bound. -/
def bindNew (can : String → Bool) (s : St) (c : Ch) (ep : String) : St × Bool :=
  if can ep && !taken s ep && ep != "" then (⟨put s.cfg c ep, put s.bound c (ep :: s.bound c), s.timers⟩, true) else (s, false)

/-- An endpoint for the channel: the old one is unbound before the new one is bound. -/
def change (can : String → Bool) (s : St) (c : Ch) (ep : String) : St × Bool :=
  if ep = s.cfg c then (s, true) else bindNew can (unbindChannel s c (s.cfg c)) c ep

/-- The part of `configure_ipc_channels` for one channel. -/
def configure1 (can : String → Bool) (s : St) (c : Ch) : Option String → St × Bool
  | none => (s, true)
  | some ep => change can s c ep

/-- The channels one after the other, until one throws. -/
def configureAll (can : String → Bool) (msg : Ch → Option String) : List Ch → St → St × Bool
  | [], s => (s, true)
  | c :: cs, s => match configure1 can s c (msg c) with
    | (s, true) => configureAll can msg cs s
    | r => r

/-- A configure command; true: the channels were configured, false: the reply is negative. -/
def configure (can : String → Bool) (msg : Ch → Option String) (s : St) : St × Bool :=
  configureAll can msg [.ctrl, .rx, .ready, .release] s

/-- The first timer fires: `unbind_channel` with `deferred` false. -/
def fire (s : St) : St :=
  match s.timers with
  | [] => s
  | ep :: l => { unbind s .ctrl ep with timers := l }

inductive Act
  | configure (msg : Ch → Option String) (can : String → Bool)
  | fire

/-- One step, and whether it was refused. -/
def step (s : St) : Act → St × Bool
  | .configure msg can => configure can msg s
  | .fire => (fire s, true)

/-- A history, and the replies in it. -/
def run (s : St) : List Act → St × List Bool
  | [] => (s, [])
  | a :: l => ((run (step s a).1 l).1, (step s a).2 :: (run (step s a).1 l).2)

def init : St := ⟨fun _ => "", fun _ => [], []⟩

end Verif.RxEndpoints
