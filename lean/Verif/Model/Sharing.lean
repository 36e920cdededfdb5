import Verif.Model.Chain
import Verif.Model.ParamAdjust
/-
Model of frames as shared objects on their way through the connected plugins.
Source: /repo/cpp/frameProcessor/src/FrameProcessorPlugin.cpp: callback 356-376, push 393-408 (the same
`boost::shared_ptr<Frame>` goes to all connected plugins); IFrameCallback.cpp: workerTask 114-128;
SharedMemoryController.cpp: handleRxChannel 161-238; the `process_frame` methods of all plugins.

As Model/Chain.lean, but the queues hold references to frames and a plugin can change the frame it was given. A plugin
is any function from its state and the contents of the frame to its new state, the new contents of that frame and the
frames pushed: the frame it was given (`none`) or new ones. A call of `process_frame` reads and changes the frame at one
moment between its begin and its end (in the code the accesses of two threads to one frame are not even synchronised).
Not modelled, as in Chain: plugins called directly, changes of the connections, exceptions, stopping.
-/
namespace Verif.Sharing
open Verif.Chain (deliveries)

variable {F σ : Type}

structure Net (F σ : Type) where
  succ : Nat → List Nat
  work : Nat → σ → F → σ × F × List (Option F)
  init : Nat → σ
  max : Nat

/-- A plugin. Frames in `queue` and `cur` are references with their sender, those in `out` with the receiver. -/
structure Node (F σ : Type) where
  st : σ
  queue : List (Nat × Nat) := []
  cur : Option (Nat × Nat) := none         -- the frame `process_frame` was called with
  out : List (Nat × Nat) := []             -- deliveries not made yet
  done : List (Nat × F) := []              -- history: what was processed, as it was then
  pushed : List F := []                    -- history: what was pushed, as it was then

structure St (F σ : Type) where
  node : Nat → Node F σ
  heap : Nat → F                           -- the frames
  next : Nat                               -- number of the next new frame

def setNode (n : Nat → Node F σ) (p : Nat) (x : Node F σ) : Nat → Node F σ := fun q => if q = p then x else n q
def put (h : Nat → F) (r : Nat) (f : F) : Nat → F := fun q => if q = r then f else h q

/-- The references of the pushed frames, new ones being made; `r` is the frame the plugin was given. -/
def alloc (r : Nat) : List (Option F) → (Nat → F) → Nat → List Nat × (Nat → F) × Nat
  | [], h, n => ([], h, n)
  | none :: ps, h, n => (r :: (alloc r ps h n).1, (alloc r ps h n).2)
  | some g :: ps, h, n => (n :: (alloc r ps (put h n g) (n + 1)).1, (alloc r ps (put h n g) (n + 1)).2)

/-- The contents of the pushed frames; `f` is what the given frame has become. -/
def values (f : F) (ps : List (Option F)) : List F := ps.map (fun o => o.getD f)

def Node.grab (x : Node F σ) (f : Nat × Nat) (rest : List (Nat × Nat)) : Node F σ :=
  { x with cur := some f, queue := rest }

/-- The plugin after `process_frame`: state, references pushed, contents of the frame before and of the pushed ones. -/
def Node.finish (x : Node F σ) (st : σ) (ts refs : List Nat) (sender : Nat) (f : F) (gs : List F) : Node F σ :=
  { x with st := st, cur := none, out := deliveries ts refs, done := x.done ++ [(sender, f)], pushed := x.pushed ++ gs }

def Node.sent (x : Node F σ) (rest : List (Nat × Nat)) : Node F σ := { x with out := rest }
def Node.got (x : Node F σ) (f : Nat × Nat) : Node F σ := { x with queue := x.queue ++ [f] }

inductive Act
  | grab (p : Nat)                         -- IFrameCallback.cpp:122-125: remove a frame from the queue
  | finish (p : Nat)                       -- `process_frame`
  | deliver (p : Nat)                      -- FrameProcessorPlugin.cpp:405-407: add a frame to a queue
deriving DecidableEq, Repr

/-- `process_frame` of plugin `p` with the frame `r` it was given by `sender`. -/
def finish (N : Net F σ) (s : St F σ) (p sender r : Nat) : St F σ :=
  let w := N.work p (s.node p).st (s.heap r)
  let a := alloc r w.2.2 (put s.heap r w.2.1) s.next
  { node := setNode s.node p ((s.node p).finish w.1 (N.succ p) a.1 sender (s.heap r) (values w.2.1 w.2.2)),
    heap := a.2.1, next := a.2.2 }

def deliver (s : St F σ) (p t r : Nat) (rest : List (Nat × Nat)) : St F σ :=
  let n := setNode s.node p ((s.node p).sent rest)
  { s with node := setNode n t ((n t).got (p, r)) }

/-- One step of one thread, if it can make it. -/
def step (N : Net F σ) (s : St F σ) : Act → Option (St F σ)
  | .grab p =>
    match (s.node p).cur, (s.node p).out, (s.node p).queue with
    | none, [], f :: rest => some { s with node := setNode s.node p ((s.node p).grab f rest) }
    | _, _, _ => none
  | .finish p =>
    match (s.node p).cur with
    | some (sender, r) => some (finish N s p sender r)
    | none => none
  | .deliver p =>
    match (s.node p).out with
    | (t, r) :: rest => if p = 0 ∨ (s.node t).queue.length < N.max then some (deliver s p t r rest) else none
    | [] => none

/-- A schedule. -/
def exec (N : Net F σ) (s : St F σ) : List Act → Option (St F σ)
  | [] => some s
  | a :: as => (step N s a).bind (fun s' => exec N s' as)

/-- The frames waiting to be handled at the start, each an object of its own. -/
def start [Inhabited F] (N : Net F σ) (src : List F) : St F σ :=
  { node := fun p => { st := N.init p, queue := if p = 0 then (List.range src.length).map (fun i => (0, i)) else [] },
    heap := fun i => src.getD i default, next := src.length }

/-! The plugins of the repository. -/

/-- What plugins read and change of a frame. -/
structure Fr where
  md : ParamAdjust.Frame := { number := 0 }
  image : List Nat := []
  dataset : String := ""
  eoa : Bool := false
deriving DecidableEq, Repr

instance : Inhabited Fr := ⟨{}⟩

/-- The plugins with their configuration. -/
inductive Kind
  | observer (keep : Fr → Bool)            -- file writer (pushes what it writes), live view, Kafka: the frame is only read
  | sum (name : String) (total : List Nat → Nat)
  | offset (adj : Int)
  | param (c : ParamAdjust.State)
  | dummy (copy : Bool) (blank : List Nat → List Nat) (out : Fr → Fr)
  | derived (g : Fr → Option Fr)           -- Blosc and gap fill: a new frame, or nothing

/-- `process_frame` of SumPlugin.cpp:47-68, OffsetAdjustmentPlugin.cpp:40-44, ParameterAdjustmentPlugin.cpp:38-80,
DummyUDPProcessPlugin.cpp:205-278 (lost packets are blanked in the frame itself, 285-326), BloscPlugin.cpp:217-235,
GapFillPlugin.cpp:41-52, LiveViewPlugin.cpp:60-131, KafkaProducerPlugin.cpp:434-441, FileWriterPlugin.cpp:139-171. The
end of an acquisition is passed on. Overflows of adjustments, which are undefined, leave the frame as it is. -/
def Kind.work (k : Kind) (f : Fr) : Fr × List (Option Fr) :=
  if f.eoa then (f, [none])
  else match k with
    | .observer keep => (f, if keep f then [none] else [])
    | .sum name total => ({ f with md := { f.md with params := StdMap.set f.md.params name (.u64 (total f.image)) } }, [none])
    | .offset adj => ({ f with md := (ParamAdjust.offsetFrame adj f.md).getD f.md }, [none])
    | .param c => ({ f with md := ((ParamAdjust.processFrame c f.md).map (·.1)).getD f.md }, [none])
    | .dummy copy blank out =>
      if copy then ({ f with image := blank f.image }, [some (out { f with image := blank f.image })])
      else (out { f with image := blank f.image }, [none])
    | .derived g => (f, [g f].filterMap (fun o => o.map some))

/-- Plugins connected to each other; node 0, the shared memory controller, only passes frames on. -/
def netOf (succ : Nat → List Nat) (kind : Nat → Kind) (max : Nat) : Net Fr Unit where
  succ := succ
  work p _ f := ((), (kind p).work f)
  init _ := ()
  max := max

end Verif.Sharing
