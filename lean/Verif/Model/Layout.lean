/-
Model of the layout of a dataset and of the bytes of its chunks.
Source: /repo/cpp/frameProcessor/src/HDF5File.cpp: create_dataset 404-546, write_frame 227-289, extend_dataset 581-589;
/repo/cpp/frameProcessor/src/Acquisition.cpp: validate_dataset_definition 310-324, the call of write_frame 120-125.

Of the HDF5 library the rules it documents for chunked datasets are modelled: which layouts it creates (`accepts`), which
chunks `H5DOwrite_chunk` takes (`takes`), and where a reader looks for an element (`element`): in the chunk that covers it,
at its row-major position there. No filters; elements never written read as the fill value. An unfiltered chunk whose
stored size is not that of a chunk cannot be read. No library call fails for other reasons here (see Model/Dataset.lean),
and numbers do not wrap.
-/
namespace Verif.Layout

/-- The fields of `DatasetDefinition` used; `size` is that of an element of the HDF5 type. -/
structure Def where
  dims : List Nat
  chunks : List Nat
  frames : Nat             -- num_frames
  size : Nat
  deriving DecidableEq

/-- Number of elements of a box. -/
def vol : List Nat → Nat
  | [] => 1
  | d :: l => d * vol l

/-- A dataset: current dimensions, chunk dimensions, element size, and the chunks stored, the latest first. -/
structure Ds (α : Type) where
  unlimited : Bool
  dims : List Nat
  chunk : List Nat
  size : Nat
  stored : List (List Nat × List α)

/-- No chunk dimension is larger than the fixed dimension it divides. -/
def fitsIn : List Nat → List Nat → Bool
  | c :: cs, d :: ds => decide (c ≤ d) && fitsIn cs ds
  | [], [] => true
  | _, _ => false

/-- Layouts HDF5 creates: at most 32 dimensions, chunk dimensions positive and below 2^32, chunks below 4 GiB, and chunk
dimensions not above those dimensions that are fixed. -/
def accepts (unlimited : Bool) (dims chunk : List Nat) (size : Nat) : Bool :=
  decide (dims.length ≤ 32) && chunk.all (fun c => decide (0 < c ∧ c < 2 ^ 32)) && decide (vol chunk * size < 2 ^ 32) &&
    (if unlimited then fitsIn chunk.tail dims.tail else fitsIn chunk dims)

/-- `validate_dataset_definition`, Acquisition.cpp:310-324. -/
def valid (d : Def) : Bool := d.dims.all (fun n => n != 0) && d.chunks.all (fun n => n != 0)

/-- HDF5File.cpp:444-447. -/
def clamp (c n : Nat) : Nat := if c > n then n else c

/-- Validation and `create_dataset`, HDF5File.cpp:414-546; `none`: refused. -/
def create {α : Type} (unlimited : Bool) (d : Def) : Option (Ds α) :=
  if valid d = false then none
  else
    match d.chunks with
    | [] => none
    | c :: cs =>
      if cs.length ≠ d.dims.length then none
      else if unlimited then
        if accepts true (1 :: d.dims) (c :: cs) d.size then some ⟨true, 1 :: d.dims, c :: cs, d.size, []⟩ else none
      else
        if accepts false (d.frames :: d.dims) (clamp c d.frames :: cs) d.size then
          some ⟨false, d.frames :: d.dims, clamp c d.frames :: cs, d.size, []⟩
        else none

/-- `extend_dataset`, HDF5File.cpp:581-589. -/
def extend {α : Type} (d : Ds α) (rows : Nat) : Ds α :=
  match d.dims with
  | [] => d
  | n :: l => if rows > n then { d with dims := rows :: l } else d

/-- Whether `H5DOwrite_chunk` takes a chunk at this offset: inside the extent (`edge`: or at its edge, as some versions of
the library allow) and on a boundary of chunks. -/
def takes (edge : Bool) : List Nat → List Nat → List Nat → Bool
  | o :: os, n :: ns, c :: cs => (decide (o < n) || (edge && o == n)) && decide (o % c = 0) && takes edge os ns cs
  | _, _, _ => true

/-- Storing the bytes of an image as one chunk, HDF5File.cpp:260-267. -/
def store {α : Type} (edge : Bool) (d : Ds α) (off : List Nat) (img : List α) : Ds α × Bool :=
  if takes edge off d.dims d.chunk then ({ d with stored := (off, img) :: d.stored }, true) else (d, false)

/-- The offset of the frame of a slot: zero except in the first dimension, HDF5File.cpp:253-255. -/
def offsetOf {α : Type} (d : Ds α) (slot outer : Nat) : List Nat := slot * outer :: List.replicate (d.dims.length - 1) 0

/-- HDF5File.cpp:246-248. -/
def grown {α : Type} (d : Ds α) (slot outer : Nat) : Ds α := if d.unlimited then extend d ((slot + 1) * outer) else d

/-- `write_frame`, HDF5File.cpp:227-289, with the outer chunk dimension of the definition; true: written. -/
def write {α : Type} (edge : Bool) (d : Ds α) (outer slot : Nat) (img : List α) : Ds α × Bool :=
  store edge (grown d slot outer) (offsetOf d slot outer) img

def run {α : Type} (edge : Bool) (outer : Nat) (d : Ds α) (l : List (Nat × List α)) : Ds α :=
  l.foldl (fun d f => (write edge d outer f.1 f.2).1) d

/-! ## Blosc parameters -/

/-- `frame_num_pixels`, an unsigned int multiplied by 64 bit numbers in turn, HDF5File.cpp:416-420. -/
def pixels (dims : List Nat) : Nat := dims.foldl (fun p n => p * n % 2 ^ 32) 1

/-- The values for the Blosc filter, HDF5File.cpp:484-494: filter version, format version, element size, size of the
uncompressed data, level, shuffle and compressor. The last three are 32 bit numbers of the definition. -/
def bloscParams (d : Def) (format level shuffle compressor : Nat) : List Nat :=
  [2, format, d.size % 2 ^ 32, pixels d.dims * d.size % 2 ^ 32, level, shuffle, compressor]

/-! ## Reading -/

/-- Row-major position in a box. -/
def flat : List Nat → List Nat → Nat
  | _ :: ds, x :: xs => x * vol ds + flat ds xs
  | _, _ => 0

/-- All coordinates are inside. -/
def inside : List Nat → List Nat → Bool
  | x :: xs, d :: ds => decide (x < d) && inside xs ds
  | [], [] => true
  | _, _ => false

/-- The bytes of an element, as a reader of the file gets them; `none`: outside the dataset or not readable. -/
def element {α : Type} (fill : α) (d : Ds α) (x : List Nat) : Option (List α) :=
  if inside x d.dims then
    match d.stored.lookup (List.zipWith (fun c i => i / c * c) d.chunk x) with
    | none => some (List.replicate d.size fill)
    | some img =>
      if img.length = vol d.chunk * d.size then
        some ((img.drop (flat d.chunk (List.zipWith (fun c i => i % c) d.chunk x) * d.size)).take d.size)
      else none
  else none

end Verif.Layout
