/-
Model of the class loader and of loading plugins with it.
Source: /repo/cpp/common/include/ClassLoader.h: REGISTER 15, constructor 53-56, load_class 63-92, is_registered 112-115;
/repo/cpp/frameProcessor/src/FrameProcessorController.cpp: loadPlugin 700-728;
/repo/cpp/frameReceiver/src/FrameReceiverController.cpp: configure_frame_decoder 501-532.

Names of classes, paths of libraries and indices of plugins are numbers. What a library registers when it is opened does not
change; a library that is open already runs none of its constructors again (`dlopen`). One base class.
-/
namespace Verif.Loader

/-- The libraries of the system. -/
structure Libs where
  provides : Nat → Option (List Nat)     -- the names a library registers in turn; `none`: it cannot be opened
  throws : Nat → Nat → Bool              -- the constructor of the class of this name in this library throws

/-- `factory_map()`: for a name the library whose `maker` it is; and the libraries opened, the last one first. -/
structure Reg where
  factory : Nat → Option Nat := fun _ => none
  opened : List Nat := []

inductive Res
  | object (lib : Nat)     -- an object of the class of that name in library `lib`
  | null                   -- a null pointer
  | error                  -- `std::runtime_error` with the text of `dlerror`
deriving DecidableEq, Repr

/-- The constructors of the registration objects of a library, ClassLoader.h:53-56. -/
def registerAll (r : Nat → Option Nat) (path : Nat) : List Nat → Nat → Option Nat
  | [] => r
  | n :: l => registerAll (fun k => if k = n then some path else r k) path l

/-- `dlopen`, line 76; `none`: NULL. -/
def openLib (w : Libs) (r : Reg) (path : Nat) : Option Reg :=
  match w.provides path with
  | none => none
  | some l => if path ∈ r.opened then some r else some ⟨registerAll r.factory path l, path :: r.opened⟩

/-- Lines 85-93: an object, or a null pointer if the name is not registered or the constructor throws. -/
def makeObj (w : Libs) (r : Reg) (name : Nat) : Res :=
  match r.factory name with
  | none => .null
  | some lib => if w.throws lib name then .null else .object lib

/-- `load_class`. -/
def load (w : Libs) (r : Reg) (name path : Nat) : Reg × Res :=
  if (r.factory name).isSome then (r, makeObj w r name)
  else
    match openLib w r path with
    | none => (r, .error)
    | some r' => (r', makeObj w r' name)

/-! ## The controller of the frame processor -/

structure St where
  reg : Reg := {}
  plugins : Nat → Option (Nat × Nat) := fun _ => none    -- class and library of the plugin of an index

/-- `loadPlugin`; second component: no exception, so that the client gets a positive reply. -/
def loadPlugin (w : Libs) (s : St) (index name path : Nat) : St × Bool :=
  if (s.plugins index).isSome then (s, true)
  else
    match load w s.reg name path with
    | (r, .object lib) => (⟨r, fun i => if i = index then some (name, lib) else s.plugins i⟩, true)
    | (r, _) => (⟨r, s.plugins⟩, false)

/-- Commands in turn. -/
def runLoads (w : Libs) (s : St) (l : List (Nat × Nat × Nat)) : St :=
  l.foldl (fun s c => (loadPlugin w s c.1 c.2.1 c.2.2).1) s

end Verif.Loader
