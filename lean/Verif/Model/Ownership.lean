/-
Model of who keeps the plugins and the controller of the frame processor alive.
Source: /repo/cpp/frameProcessor/src/FrameProcessorController.cpp: loadPlugin 700-729, connectPlugin 739-765, disconnectPlugin 772-790,
disconnectAllPlugins 795-803, shutdown 817-853, closeFrameReceiverInterface 906-920, destructor 95-99; FrameProcessorPlugin.cpp: register_callback
268-299, remove_callback 306-325, remove_all_callbacks 330-347; SharedMemoryController.cpp: registerCallback 249-259, removeCallback 266-278;
FrameProcessorApp.cpp: controller_ 44, destructor 60-63, run 180-257.

An object is a number: 0 is the controller, 1 the shared memory controller, the others are plugins. Its shared pointers are a list of objects; a plugin with
the name `controller` is left out, and so is the null pointer in `disconnectPlugin` when there is no shared memory controller (line 778). That an object is destroyed when the last shared pointer to it is gone is modelled by sweeps in which all
objects that are not held are destroyed at once.
-/
namespace Verif.Ownership

/-- The shared pointers in an object. -/
abbrev Refs := Nat → List Nat

/-- The objects that are configured. -/
structure Cfg where
  plugins : List Nat := []        -- `plugins_`
  shm : Bool := false             -- `sharedMemController_`
  refs : Refs := fun _ => []      -- callbacks of a plugin, of the shared memory controller

/-- What a message does. -/
inductive Op
  | load (x : Nat) (writer : Bool)
  | interface                          -- the shared memory controller is made
  | connect (x y : Nat)                -- x receives the frames of y
  | disconnect (x y : Nat)
  | disconnectAll
deriving DecidableEq, Repr

/-- The pointers of an object are changed. -/
def upd (g : Refs) (y : Nat) (l : List Nat) : Refs := fun z => if z = y then l else g z

/-- A callback is registered, unless it is there already, FrameProcessorPlugin.cpp:268-299 and SharedMemoryController.cpp:249-259. -/
def insert (l : List Nat) (x : Nat) : List Nat := if x ∈ l then l else x :: l

/-- One message, FrameProcessorController.cpp:700-803. -/
def step (c : Cfg) : Op → Cfg
  | .load x writer =>
    if x ∈ c.plugins ∨ x < 2 then c
    else ⟨x :: c.plugins, c.shm, upd c.refs x (if writer then [0] else [])⟩
  | .interface => ⟨c.plugins, true, upd c.refs 1 []⟩
  | .connect x y =>
    if x ∈ c.plugins ∧ (y ∈ c.plugins ∨ (y = 1 ∧ c.shm = true)) then ⟨c.plugins, c.shm, upd c.refs y (insert (c.refs y) x)⟩ else c
  | .disconnect x y =>
    if x ∈ c.plugins ∧ (y ∈ c.plugins ∨ y = 1) then ⟨c.plugins, c.shm, upd c.refs y ((c.refs y).filter (fun z => decide (z ≠ x)))⟩ else c
  | .disconnectAll => ⟨c.plugins, c.shm, fun z => if z ∈ c.plugins then [] else c.refs z⟩

/-- All of them. -/
def run (ops : List Op) : Cfg := ops.foldl step {}

/-- The objects there are. -/
def objects (c : Cfg) : List Nat := 0 :: ((if c.shm then [1] else []) ++ c.plugins)

/-- Is an object held by one of the others that are left? -/
def held (g : Refs) (live : List Nat) (x : Nat) : Bool := live.any fun y => decide (x ∈ g y)

/-- Those that are not are destroyed. -/
def sweep (g : Refs) (live : List Nat) : List Nat := live.filter (held g live)

/-- As often as there are objects. -/
def settle (g : Refs) : Nat → List Nat → List Nat
  | 0, live => live
  | n + 1, live => settle g n (sweep g live)

/-- The shared pointers while the controller has its members. -/
def running (c : Cfg) : Refs := upd c.refs 0 ((if c.shm then [1] else []) ++ c.plugins)

/-- After `shutdown`: `plugins_.clear()` and `sharedMemController_.reset()`. -/
def down (c : Cfg) : Refs := upd c.refs 0 []

/-- What is left after `shutdown`, when the application has released the controller, FrameProcessorApp.cpp:60-63. -/
def leftAfterShutdown (c : Cfg) : List Nat := settle (down c) (objects c).length (objects c)

/-- What is left if an exception has ended `run` before, FrameProcessorApp.cpp:246-254. If the controller is destroyed its destructor calls
`shutdown`, FrameProcessorController.cpp:95-99, which leaves what is left after that; if it is not, the plugins stay with it. -/
def leftAfterException (c : Cfg) : List Nat :=
  if 0 ∈ settle (running c) (objects c).length (objects c) then settle (running c) (objects c).length (objects c) else leftAfterShutdown c

/-- Every object left has channels open (a plugin that of its meta data, /repo/cpp/frameProcessor/include/MetaMessagePublisher.h:33-34), and so the context of ZeroMQ,
which is destroyed by `exit`, waits for ever. -/
def ends (left : List Nat) : Bool := left.isEmpty

end Verif.Ownership
