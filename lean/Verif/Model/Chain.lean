/-
Model of the flow of frames through the connected plugins.
Source: /repo/cpp/frameProcessor/src/IFrameCallback.cpp: workerTask (the loop: remove a frame, call callback);
FrameProcessorPlugin.cpp: callback 356-376, push 393-408; SharedMemoryController.cpp: handleRxChannel 161-238 and
injectEOA (frames are added to the queues ignoring the limit); include/WorkQueue.h.

Each plugin has a worker thread. Node 0 is the shared memory controller, whose queue holds the messages of the
frame receiver. A plugin is any function from its state and a frame to its new state and the frames it pushes.
A push adds the frame to the queues of all plugins connected, one after the other, waiting while a queue is full.
The threads are interleaved freely. The queue is an ideal bounded queue (see Model/WorkQueue.lean for the real one).
Not modelled: plugins called directly, changes of the connections, exceptions, stopping.
-/
namespace Verif.Chain

variable {F σ : Type}

structure Net (F σ : Type) where
  succ : Nat → List Nat                    -- the plugins connected to each plugin
  work : Nat → σ → F → σ × List F
  init : Nat → σ
  max : Nat                                -- max_queue_size

/-- A node; frames in `queue` and `done` are tagged with their sender, those in `out` with the receiver. -/
structure Node (F σ : Type) where
  st : σ
  queue : List (Nat × F) := []
  out : List (Nat × F) := []               -- deliveries of the current call of `callback` not made yet
  done : List (Nat × F) := []              -- frames taken from the queue, a history

abbrev State (F σ : Type) := Nat → Node F σ

def upd (s : State F σ) (p : Nat) (x : Node F σ) : State F σ := fun q => if q = p then x else s q

/-- All deliveries of a list of pushed frames. -/
def deliveries (ts : List Nat) (gs : List F) : List (Nat × F) := gs.flatMap (fun g => ts.map (fun t => (t, g)))

/-- `workerTask`: take a frame from the queue and process it. -/
def Node.take (N : Net F σ) (p : Nat) (x : Node F σ) (f : Nat × F) (rest : List (Nat × F)) : Node F σ :=
  { st := (N.work p x.st f.2).1, queue := rest, out := deliveries (N.succ p) (N.work p x.st f.2).2,
    done := x.done ++ [f] }

def Node.sent (x : Node F σ) (rest : List (Nat × F)) : Node F σ := { x with out := rest }
def Node.got (x : Node F σ) (f : Nat × F) : Node F σ := { x with queue := x.queue ++ [f] }

inductive Step (N : Net F σ) : State F σ → State F σ → Prop
  | take (s : State F σ) (p : Nat) (f : Nat × F) (rest : List (Nat × F)) : (s p).out = [] → (s p).queue = f :: rest →
      Step N s (upd s p ((s p).take N p f rest))
  | deliver (s : State F σ) (p t : Nat) (g : F) (rest : List (Nat × F)) : (s p).out = (t, g) :: rest →
      (p = 0 ∨ (s t).queue.length < N.max) →
      Step N s (upd (upd s p ((s p).sent rest)) t ((upd s p ((s p).sent rest) t).got (p, g)))

/-- `k` steps. -/
inductive Run (N : Net F σ) : Nat → State F σ → State F σ → Prop
  | nil (s : State F σ) : Run N 0 s s
  | cons (k : Nat) (s s' s'' : State F σ) : Run N k s s' → Step N s' s'' → Run N (k + 1) s s''

/-- The frames waiting to be handled at the start. -/
def start (N : Net F σ) (src : List F) : State F σ :=
  fun p => { st := N.init p, queue := if p = 0 then src.map (fun f => (0, f)) else [] }

end Verif.Chain
