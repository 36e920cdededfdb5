import Verif.Model.StdMap
/-
Model of the frames and their meta data as objects that are made, copied, assigned and changed.
Source: /repo/cpp/frameProcessor/src/FrameMetaData.cpp (all of it), FrameMetaData.h 42-85;
Frame.cpp: constructors 11-29, operator= 36-42, is_valid 47-53, set_data_size 82-87,
set_frame_number 100-102, get_meta_data_copy and set_meta_data 121-130, set_outer_chunk_size 158-161; EndOfAcquisitionFrame.cpp 10-49.

A member of a fundamental type that has not been set is `none`; to read it is undefined behaviour. A frame parameter
(`boost::any`) is the name of its type with a number for its value. The image and the data of frames are in
Verif.FrameImage and Verif.Pool; the logger is left out.
-/
namespace Verif.FrameMeta
open Verif.StdMap

/-- What a `boost::any` holds. -/
structure Any where
  type : String
  value : Int
deriving DecidableEq, Repr

/-- The members, FrameMetaData.h:123-153. -/
structure Meta where
  number : Option Int := none          -- frame_number_
  dataset : String := ""               -- dataset_name_
  dtype : Option Nat := none           -- data_type_
  acq : String := ""                   -- acquisition_ID_
  dims : List Nat := []                -- dimensions_
  comp : Option Nat := none            -- compression_type_
  params : Map Any := []               -- parameters_
  offset : Option Int := none          -- frame_offset_
deriving DecidableEq, Repr

/-- The constructor with values, FrameMetaData.cpp:5-19. -/
def Meta.make (number : Int) (dataset : String) (dtype : Nat) (acq : String) (dims : List Nat) (comp : Nat) : Meta :=
  { number := some number, dataset := dataset, dtype := some dtype, acq := acq, dims := dims, comp := some comp, offset := some 0 }

/-- raw_unknown, FrameProcessorDefinitions.h:20. -/
def rawUnknown : Nat := 0

/-- unknown_compression, FrameProcessorDefinitions.h:24. -/
def unknownCompression : Nat := 0

/-- The constructor without values, FrameMetaData.cpp:21-28. -/
def Meta.empty : Meta :=
  { number := some (-1), dtype := some rawUnknown, comp := some unknownCompression, offset := some 0 }

/-- The copy constructor, FrameMetaData.cpp:30-40, and the assignment (that of the compiler): all members one after
the other. `none`: a member is read that has not been set. -/
def Meta.copy (m : Meta) : Option Meta :=
  m.number.bind fun n => m.dtype.bind fun d => m.comp.bind fun c => m.offset.bind fun o =>
    some { number := some n, dataset := m.dataset, dtype := some d, acq := m.acq, dims := m.dims, comp := some c, params := m.params, offset := some o }

/-- A frame, Frame.h:84-106. -/
structure Frame where
  info : Meta := {}                    -- meta_data_
  data : Option Nat := none            -- data_size_
  outer : Option Int := none           -- outer_chunk_size_
  eoa : Bool := false                  -- an EndOfAcquisitionFrame
deriving DecidableEq, Repr

/-- The constructor, Frame.cpp:11-18. -/
def Frame.make (m : Meta) (size : Nat) : Option Frame :=
  m.copy.map fun m => { info := m, data := some size, outer := some 1 }

/-- The constructor of EndOfAcquisitionFrame, EndOfAcquisitionFrame.cpp:10-13: `Frame(meta_data_, 0, 0)`. The meta data
that are copied are the member itself, whose strings, map and vector are empty at that moment and whose other
members are not set. -/
def Frame.makeEoa : Option Frame := (Frame.make {} 0).map fun f => { f with eoa := true }

/-- The copy constructor, Frame.cpp:24-29: neither `data_size_` nor `image_size_`. -/
def Frame.copy (g : Frame) : Option Frame :=
  g.info.copy.bind fun m => g.outer.map fun o => { info := m, outer := some o, eoa := g.eoa }

/-- The assignment, Frame.cpp:36-42: not `data_size_` either. -/
def Frame.assign (f g : Frame) : Option Frame :=
  g.info.copy.bind fun m => g.outer.map fun o => { info := m, data := f.data, outer := some o, eoa := f.eoa }

/-- Calls. `none` of a step is undefined behaviour. -/
inductive Call
  | number (n : Int)                   -- set_frame_number, Frame.cpp:100-102
  | dataset (s : String)               -- FrameMetaData.cpp:73-75
  | dtype (t : Nat)                    -- 87-89
  | acq (s : String)                   -- 101-103
  | dims (l : List Nat)                -- 115-117
  | comp (c : Nat)                     -- 129-131
  | offset (n : Int)                   -- set_frame_offset, 143-145
  | adjust (n : Int)                   -- adjust_frame_offset, 150-152
  | param (k : String) (v : Any)       -- set_parameter, FrameMetaData.h:73-76
  | size (n : Nat)                     -- set_data_size, Frame.cpp:82-87
  | outer (n : Int)                    -- set_outer_chunk_size, 158-161
deriving DecidableEq, Repr

/-- `int64_t`. -/
def fits (i : Int) : Bool := -(2 ^ 63) ≤ i && i < 2 ^ 63

def Meta.call (m : Meta) : Call → Option Meta
  | .number n => some { m with number := some n }
  | .dataset s => some { m with dataset := s }
  | .dtype t => some { m with dtype := some t }
  | .acq s => some { m with acq := s }
  | .dims l => some { m with dims := l }
  | .comp c => some { m with comp := some c }
  | .offset n => some { m with offset := some n }
  | .adjust n => m.offset.bind fun o => if fits (o + n) then some { m with offset := some (o + n) } else none
  | .param k v => some { m with params := set m.params k v }
  | .size _ => some m
  | .outer _ => some m

/-- `set_data_size`, Frame.cpp:82-87: a larger size is refused with an exception and nothing changes. -/
def resize (old n : Nat) : Nat := if old < n then old else n

def Frame.call (f : Frame) (c : Call) : Option Frame :=
  match c with
  | .size n => f.data.map fun d => { f with data := some (resize d n) }
  | .outer n => some { f with outer := some n }
  | c => (f.info.call c).map fun m => { f with info := m }

/-- Operations on objects with numbers. -/
inductive Op
  | make (f : Nat) (number : Int) (dataset : String) (dtype : Nat) (acq : String) (dims : List Nat) (comp : Nat) (size : Nat)
  | empty (f : Nat) (size : Nat)       -- with FrameMetaData()
  | eoa (f : Nat)
  | copy (f g : Nat)                   -- f(g)
  | assign (f g : Nat)                 -- f = g
  | info (f g : Nat)                   -- f.set_meta_data(g.get_meta_data_copy()), Frame.cpp:121-130
  | call (f : Nat) (c : Call)
deriving DecidableEq, Repr

abbrev State := Nat → Option Frame

def State.put (s : State) (f : Nat) (v : Frame) : State := fun i => if i = f then some v else s i

/-- An operation; nothing happens if there is no such frame. -/
def step (s : State) : Op → Option State
  | .make f n d t a l c k => (Frame.make (Meta.make n d t a l c) k).map fun v => s.put f v
  | .empty f k => (Frame.make Meta.empty k).map fun v => s.put f v
  | .eoa f => Frame.makeEoa.map fun v => s.put f v
  | .copy f g => match s g with
    | none => some s
    | some v => v.copy.map fun w => s.put f w
  | .assign f g => match s f, s g with
    | some u, some v => (u.assign v).map fun w => s.put f w
    | _, _ => some s
  | .info f g => match s f, s g with
    | some u, some v => (v.info.copy.bind Meta.copy).map fun m => s.put f { u with info := m }
    | _, _ => some s
  | .call f c => match s f with
    | none => some s
    | some u => (u.call c).map fun w => s.put f w

def run (s : State) : List Op → Option State
  | [] => some s
  | o :: l => (step s o).bind fun s => run s l

/-- What can be asked. -/
inductive Field
  | number | dataset | dtype | acq | dims | comp | offset | size | outer
  | param (k : String)                 -- in get_parameters, FrameMetaData.cpp:45-47
deriving DecidableEq, Repr

inductive Val
  | int (n : Int)
  | str (s : String)
  | list (l : List Nat)
  | any (a : Any)
  | absent                             -- no such parameter
deriving DecidableEq, Repr

/-- The answer; `none`: a member is read that has not been set. -/
def Frame.get (f : Frame) : Field → Option Val
  | .number => f.info.number.map .int
  | .dataset => some (.str f.info.dataset)
  | .dtype => f.info.dtype.map fun (n : Nat) => .int n
  | .acq => some (.str f.info.acq)
  | .dims => some (.list f.info.dims)
  | .comp => f.info.comp.map fun (n : Nat) => .int n
  | .offset => f.info.offset.map .int
  | .size => f.data.map fun (n : Nat) => .int n
  | .outer => f.outer.map .int
  | .param k => some ((find f.info.params k).elim .absent .any)

/-- `get_parameter<T>`, FrameMetaData.h:42-63: `none` is the exception. -/
def Frame.getParam (f : Frame) (k type : String) : Option Int :=
  match find f.info.params k with
  | none => none
  | some a => if a.type = type then some a.value else none

/-- `has_parameter`, FrameMetaData.h:83-85. -/
def Frame.hasParam (f : Frame) (k : String) : Bool := (find f.info.params k).isSome

/-- `is_valid`, Frame.cpp:47-53; `none` as in `get`. -/
def Frame.isValid (f : Frame) : Option Bool :=
  f.info.dtype.bind fun d => if d = rawUnknown then some false else
    f.info.comp.map fun c => decide (c ≠ unknownCompression)

end Verif.FrameMeta
