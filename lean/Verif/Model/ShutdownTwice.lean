/-
Repeated calls of `shutdown` in the frame processor.
Source: /repo/cpp/frameProcessor/src/FrameProcessorController.cpp: destructor 95-99, run 804-815, shutdown 817-853,
closeFrameReceiverInterface 906-920, closeControlInterface 952-964; IFrameCallback.cpp: stop 67-76; DataBlockPool.cpp: tearDownClass 267-274;
FrameProcessorApp.cpp: run 180-258, which catches the exceptions of the controller's run.

`shutdown` is called by `run` and by the destructor, both in the main thread. An exception may leave it between any two of its steps; the
next call then finds `shutdown_` still false. That the threads of the plugins see their flags and that the loop over `isWorking` ends is the
subject of `Shutdown`. Joining a thread that has been joined does nothing. An effect is what other threads or processes notice.
-/
namespace Verif.ShutdownTwice

/-- What is noticed outside of the main thread. -/
inductive Effect
  | null (plugin : Nat)        -- a null pointer in the queue of a plugin, IFrameCallback.cpp:74
  | sent                       -- `pluginShutdownSent_`
  | destroyed (n : Nat)        -- `plugins_.clear()`, with this number of plugins
  | nullOwn                    -- a null pointer in the controller's own queue
  | reactor                    -- the reactor is told to stop
  | joined                     -- the control thread is joined
  | unregistered               -- the control channel is taken from the reactor
  | closed                     -- the control channel is closed
  | released                   -- the shared memory is released
  | pools (n : Nat)            -- the pools are deleted
deriving DecidableEq, Repr

structure St where
  plugins : List Bool          -- `working_` of each plugin in `plugins_`
  sent : Bool
  own : Bool                   -- `working_` of the controller
  stopped : Bool               -- `terminate_reactor_`
  joinable : Bool
  registered : Bool
  open_ : Bool
  shm : Bool                   -- there is a shared memory controller
  pools : Nat                  -- number of pools
  over : Bool                  -- `shutdown_`
  log : List Effect
deriving DecidableEq, Repr

/-- The null pointers of stopping the plugins from number `k` on. -/
def nulls : Nat → List Bool → List Effect
  | _, [] => []
  | k, true :: ps => .null k :: nulls (k + 1) ps
  | k, false :: ps => nulls (k + 1) ps

/-- The steps, one by one, FrameProcessorController.cpp:822-850. -/
inductive Step
  | stopPlugins | send | clear | stopOwn | stopReactor | join | unregister | close | release | tearDown | finish
deriving DecidableEq, Repr

/-- One step. -/
def apply (s : St) : Step → St
  | .stopPlugins => { s with plugins := s.plugins.map (fun _ => false), log := s.log ++ nulls 0 s.plugins }
  | .send => { s with sent := true, log := s.log ++ (if s.sent then [] else [.sent]) }
  | .clear => { s with plugins := [], log := s.log ++ (if s.plugins = [] then [] else [.destroyed s.plugins.length]) }
  | .stopOwn => { s with own := false, log := s.log ++ (if s.own then [.nullOwn] else []) }
  | .stopReactor => { s with stopped := true, log := s.log ++ (if s.stopped then [] else [.reactor]) }
  | .join => { s with joinable := false, log := s.log ++ (if s.joinable then [.joined] else []) }
  | .unregister => { s with registered := false, log := s.log ++ (if s.registered then [.unregistered] else []) }
  | .close => { s with open_ := false, log := s.log ++ (if s.open_ then [.closed] else []) }
  | .release => { s with shm := false, log := s.log ++ (if s.shm then [.released] else []) }
  | .tearDown => { s with pools := 0, log := s.log ++ (if s.pools = 0 then [] else [.pools s.pools]) }
  | .finish => { s with over := true }

/-- In the order of the code. -/
def body : List Step :=
  [.stopPlugins, .send, .clear, .stopOwn, .stopReactor, .join, .unregister, .close, .release, .tearDown, .finish]

/-- A call that an exception leaves after `n` steps; a whole one if `n` is at least the number of steps. -/
def shutdown (s : St) (n : Nat) : St := if s.over then s else (body.take n).foldl apply s

/-- Several calls. -/
def calls (s : St) (ns : List Nat) : St := ns.foldl shutdown s

end Verif.ShutdownTwice
