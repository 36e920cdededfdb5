/-
Model of the sum plugin.
Source: /repo/cpp/frameProcessor/src/SumPlugin.cpp 28-68, frameProcessor/src/Frame.cpp 15-23 and 109-111
(`int image_size_`).

Not modelled: the alignment of the pixels in memory.
-/
namespace Verif.Sum

/-- An image of a frame: the bytes from `get_image_ptr()` to the end of the frame data. -/
structure Image where
  size : Nat
  data : Nat → Nat

/-- `size_t` to `int`, Frame.cpp:19: the constructor narrows the image size. -/
def narrow (n : Nat) : Int :=
  if n % 2 ^ 32 < 2 ^ 31 then ((n % 2 ^ 32 : Nat) : Int) else ((n % 2 ^ 32 : Nat) : Int) - 2 ^ 32

/-- `int` to `size_t`, the division at SumPlugin.cpp:33. -/
def widen (i : Int) : Nat := if 0 ≤ i then i.toNat else (i + 2 ^ 64).toNat

/-- A little-endian pixel of `w` bytes. -/
def pixel (d : Nat → Nat) (w i : Nat) : Nat :=
  (List.range w).foldr (fun k acc => d (i * w + k) * 256 ^ k + acc) 0

/-- The loop of `calculate_sum`, SumPlugin.cpp:35-37, after `n` iterations: 64-bit accumulator. -/
def loop (d : Nat → Nat) (w : Nat) : Nat → Nat
  | 0 => 0
  | n + 1 => (loop d w n + pixel d w n) % 2 ^ 64

/-- `calculate_sum`, SumPlugin.cpp:28-40; `none`: reads beyond the frame. -/
def calculateSum (w : Nat) (m : Image) : Option Nat :=
  let count := widen (narrow m.size) / w
  if count * w ≤ m.size then some (loop m.data w count) else none

/-- Data types, FrameProcessorDefinitions.h. -/
inductive DType | raw8 | raw16 | raw32 | raw64 | rawFloat | rawUnknown
deriving DecidableEq, Repr

/-- Result of `process_frame`. -/
inductive Result
  | pushed (sum : Option Nat)      -- the frame is passed on, with the parameter if any
  | ub
deriving DecidableEq, Repr

/-- `set_parameter` with the sum, then the push. -/
def attach (w : Nat) (m : Image) : Result :=
  match calculateSum w m with
  | some s => .pushed (some s)
  | none => .ub

/-- `process_frame`, SumPlugin.cpp:47-68. -/
def processFrame (t : DType) (m : Image) : Result :=
  match t with
  | .raw8 => attach 1 m
  | .raw16 => attach 2 m
  | .raw32 => attach 4 m
  | .raw64 => attach 8 m
  | _ => .pushed none

end Verif.Sum
