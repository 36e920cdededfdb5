import Verif.Model.GapFillInt
import Verif.Model.Sum
import Verif.Model.DummyProcess
import Verif.Model.Layout
/-
Model of what happens to the image of a frame and to what the frame says about it (data type, dimensions, compression) on
its way through the plugins of the repository, up to a file and its reader.
Source: /repo/cpp/frameProcessor/src: BloscPlugin.cpp compress_frame 95-155, GapFillPlugin.cpp process_frame 41-52 and
insert_gaps 125-197, SumPlugin.cpp process_frame 47-68, DummyUDPProcessPlugin.cpp process_frame 205-278, Frame.cpp 15-23 and
109-111; LiveViewPlugin.cpp, KafkaProducerPlugin.cpp, OffsetAdjustmentPlugin.cpp, ParameterAdjustmentPlugin.cpp and
FileWriterPlugin.cpp, which leave image, data type, dimensions and compression as they are.

A way through the plugins is the list of what each does; frames are values (Props/Sharing.lean says when that is so). The
compressor is any pair of functions. Of a frame only the bytes of its image, what lies behind them in its memory, and the
three properties are modelled. The reader's side of the Blosc filter of HDF5 is the decompressor.
-/
namespace Verif.Pipeline
open Verif.Sum (DType)

/-- `CompressionType`, FrameProcessorDefinitions.h:24. -/
inductive Comp | unknown | no | lz4 | bslz4 | blosc
deriving DecidableEq, Repr

/-- A frame: `image` are the `image_size_` bytes from `get_image_ptr()`, `behind` the bytes after them that belong to the
memory of the frame. -/
structure Fr where
  dtype : DType
  dims : List Nat
  comp : Comp
  image : List Nat
  behind : List Nat := []
  sum : Option Nat := none        -- the parameter of the sum plugin
deriving DecidableEq, Repr

/-- The compressor (`blosc_compress` with level, shuffle and size of an element) and its inverse. -/
structure Codec where
  enc : Nat → Nat → Nat → List Nat → List Nat
  dec : List Nat → Option (List Nat)

/-- `get_size_from_enum`, FrameProcessorDefinitions.h:61-78; `none`: throws. -/
def sizeOf : DType → Option Nat
  | .raw8 => some 1
  | .raw16 => some 2
  | .raw32 => some 4
  | .raw64 => some 8
  | .rawFloat => some 4
  | .rawUnknown => none

/-- What a plugin does with a frame. -/
inductive Stage
  | pass (keep : Bool)                                 -- looks at the frame, and pushes it or not
  | sum
  | gapFill (c : GapFill.Cfg)
  | blosc (level shuffle : Nat) (left : Nat → Nat)     -- `left`: what the memory of the new frame held before
deriving Inhabited

inductive Res
  | pushed (f : Fr)
  | dropped
  | threw
  | ub
deriving DecidableEq, Repr

/-- The image as memory. -/
def bufOf (l : List Nat) : GapFill.Buf := ⟨l.length, fun i => l.getD i 0⟩
def bytesOf (size : Nat) (data : Nat → Nat) : List Nat := (List.range size).map data

/-- `int` to `unsigned long long`, GapFillPlugin.cpp:187-188. -/
def toDim (i : Int) : Nat := if 0 ≤ i then i.toNat else (i + 2 ^ 64).toNat

/-- `BLOSC_MAX_OVERHEAD`, and `BLOSC_MAX_BUFFERSIZE`, above which `blosc_compress` fails. -/
def overhead : Nat := 16
def maxBuffer : Nat := 2 ^ 31 - 1 - overhead

/-- `compress_frame`, BloscPlugin.cpp:95-155: the properties are those of the given frame except for the compression; a block
for the worst case is taken from the pool, and the image size set to that of the compressed data. Parameters are copied. -/
def compress (k : Codec) (level shuffle : Nat) (left : Nat → Nat) (f : Fr) : Res :=
  match sizeOf f.dtype with
  | none => .threw
  | some w =>
    if f.image.length > maxBuffer then .threw
    else
      let c := k.enc level shuffle w f.image
      .pushed { f with comp := .blosc, image := c, behind := bytesOf (f.image.length + overhead - c.length) left }

/-- GapFillPlugin.cpp:41-52 and 125-197: nothing looks at the compression. -/
def insertGaps (c : GapFill.Cfg) (f : Fr) : Res :=
  match sizeOf f.dtype with
  | none => .threw
  | some w =>
    match GapFill.processFrameI c f.dims w (bufOf (f.image ++ f.behind)) with
    | .dropped => .dropped
    | .ub => .ub
    | .pushed dims image => .pushed { f with dims := dims.map toDim, image := bytesOf image.size image.data, behind := [] }

/-- SumPlugin.cpp:47-68: nothing looks at the compression. -/
def sumUp (f : Fr) : Res :=
  match Sum.processFrame f.dtype ⟨f.image.length, fun i => f.image.getD i 0⟩ with
  | .ub => .ub
  | .pushed none => .pushed f
  | .pushed (some s) => .pushed { f with sum := some s }

def Stage.work (k : Codec) : Stage → Fr → Res
  | .pass true, f => .pushed f
  | .pass false, _ => .dropped
  | .sum, f => sumUp f
  | .gapFill c, f => insertGaps c f
  | .blosc level shuffle left, f => compress k level shuffle left f

def Res.bind (r : Res) (g : Fr → Res) : Res :=
  match r with
  | .pushed f => g f
  | o => o

/-- Along a way. -/
def run (k : Codec) : List Stage → Fr → Res
  | [], f => .pushed f
  | s :: l, f => (s.work k f).bind (run k l)

/-- The frame the dummy process plugin pushes, DummyUDPProcessPlugin.cpp:226-276; `none`: not one inside its memory. -/
def ofDummy : DummyProcess.Out → Option Fr
  | .copied _ dims b => some { dtype := .raw16, dims := dims.map toDim, comp := .no, image := bytesOf b.size b.data }
  | .inPlace _ dims size b =>
    if 0 ≤ size ∧ size.toNat ≤ b.size then
      some { dtype := .raw16, dims := dims.map toDim, comp := .no, image := bytesOf size.toNat b.data,
             behind := bytesOf (b.size - size.toNat) (fun i => b.data (size.toNat + i)) }
    else none
  | .ub => none

/-! ## The reader of the file -/

/-- What a reader of the file has of a stored chunk: with the Blosc filter the decompressed bytes, or none. -/
def seen (k : Codec) (filter : Bool) (chunk : List Nat) : List Nat := if filter then (k.dec chunk).getD [] else chunk

/-- A dataset as its reader sees it. -/
def view (k : Codec) (filter : Bool) (d : Layout.Ds Nat) : Layout.Ds Nat :=
  { d with stored := d.stored.map (fun c => (c.1, seen k filter c.2)) }

end Verif.Pipeline
