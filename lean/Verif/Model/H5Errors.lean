/-
Model of the reports of errors of the HDF5 library.
Source: /repo/cpp/frameProcessor/src/HDF5File.cpp: ensure_h5_result 16-18, hdf5_error_cb 20-25, constructor 27-46,
handle_h5_error 76-97, hdf_error_handler 99-105, clear_hdf_errors 107-116; the results that are checked 139-666, and
the two that are not, of H5Acreate2 (lines 524, 531).

The library keeps a stack of the errors of a thread. Each of its functions empties the stack when it is entered, except
those that are about the stack (H5Ewalk2); a function that fails leaves on the stack an entry for each function it was
in. The entries hold pointers to texts, which are freed when the stack is emptied. HDF5File copies the entries, but not
the texts. Simplified: one thread; H5Eset_auto2 and H5Ewalk2 do not fail; whether H5Eset_auto2 empties the stack is left
open. Calls are numbered in the order in which they are made.
-/
namespace Verif.H5Errors

/-- An entry of the stack (`H5E_error2_t`): the call it is of, how deep in it, and since which emptying it is there. -/
structure Entry where
  call : Nat
  depth : Nat
  gen : Nat
  deriving DecidableEq, Repr

/-- The library: the stack, how often it was emptied, and how many calls were made. -/
structure Lib where
  stack : List Entry := []
  gen : Nat := 0
  calls : Nat := 0
  deriving DecidableEq, Repr

/-- The members `hdf5_errors_` and `hdf5_error_flag_` (HDF5File.h:120-122). -/
structure File where
  errs : List Entry := []
  flag : Bool := false
  deriving DecidableEq, Repr

/-- The entries a failed call leaves, outermost function first (`H5E_WALK_DOWNWARD`). -/
def entries (call gen depth : Nat) : List Entry :=
  (List.range (depth + 1)).map fun d => ⟨call, d, gen⟩

/-- A call of the library that succeeds (`none`), or fails at some depth. -/
def api (l : Lib) (o : Option Nat) : Lib :=
  ⟨match o with
    | none => []
    | some d => entries (l.calls + 1) (l.gen + 1) d, l.gen + 1, l.calls + 1⟩

/-- `hdf_error_handler`, lines 99-105, called for each entry (lines 20-25, 83). -/
def walk (f : File) : List Entry → File
  | [] => f
  | e :: es => walk ⟨f.errs ++ [e], true⟩ es

/-- What is reported: the call whose message is in the exception (line 96), and the entries in the log (lines 86-92);
`none` if the texts of one of them have been freed: the behaviour is undefined. -/
structure Report where
  call : Nat
  trace : Option (List (Nat × Nat))
  deriving DecidableEq, Repr

/-- The lines of the log, lines 89-92. -/
def trace (l : Lib) (es : List Entry) : Option (List (Nat × Nat)) :=
  if es.all (fun e => e.gen == l.gen) then some (es.map fun e => (e.call, e.depth)) else none

/-- `handle_h5_error`, lines 76-97, with `clear_hdf_errors`, lines 107-116. -/
def handle (l : Lib) (f : File) : File × Report :=
  (⟨[], false⟩, ⟨l.calls, trace l (walk f l.stack).errs⟩)

/-- A call in a member function: is the result checked, and what becomes of the call. -/
structure Call where
  checked : Bool
  result : Option Nat
  deriving DecidableEq, Repr

/-- A member function: the calls up to the first that fails and is checked. -/
def member : List Call → Lib → File → Lib × File × Option Report
  | [], l, f => (l, f, none)
  | c :: cs, l, f =>
    if c.checked && c.result.isSome then
      (api l c.result, (handle (api l c.result) f).1, some (handle (api l c.result) f).2)
    else member cs (api l c.result) f

/-- The process: the library, `hdf_initialised` (line 37), and the file objects. -/
structure World where
  lib : Lib := {}
  init : Bool := false
  files : List File := []
  deriving DecidableEq, Repr

/-- A new file object, lines 27-46. `H5Eset_auto2` empties the stack or not. -/
def construct (empties : Bool) (w : World) : World :=
  if w.init then ⟨w.lib, true, w.files ++ [File.mk [] false]⟩
  else if empties then ⟨⟨[], w.lib.gen + 1, w.lib.calls⟩, true, w.files ++ [walk ⟨[], false⟩ []]⟩
  else ⟨w.lib, true, w.files ++ [walk ⟨[], false⟩ w.lib.stack]⟩

/-- What happens: a file object is made, a member function of one is called, or something else calls the library. -/
inductive Op
  | construct
  | member (i : Nat) (cs : List Call)
  | other (o : Option Nat)
  deriving DecidableEq, Repr

def step (empties : Bool) (w : World) : Op → World × Option Report
  | .construct => (construct empties w, none)
  | .member i cs =>
    match w.files[i]? with
    | none => (w, none)
    | some f =>
      let r := member cs w.lib f
      (⟨r.1, w.init, w.files.set i r.2.1⟩, r.2.2)
  | .other o => (⟨api w.lib o, w.init, w.files⟩, none)

def run (empties : Bool) (w : World) : List Op → World
  | [] => w
  | o :: os => run empties (step empties w o).1 os

/-- `create_dataset` with the attributes, lines 404-546: which of the calls are checked. The calls before the attributes
are eight at most, all checked, and so are the three after. -/
def attributesChecked : List Bool := [true, false, true, true, true, true, false, true, true, true]

end Verif.H5Errors
