import Verif.Model.Placement
/-
Model of the index attributes of a dataset.

Source: /repo/cpp/frameProcessor/src/Acquisition.cpp (`Acquisition::create_file`, lines 244-256),
/repo/cpp/frameProcessor/src/HDF5File.cpp (`HDF5File::create_dataset`, lines 519-535).

The two local variables are `int`, everything they are computed from is `size_t`.
-/
namespace Verif.Indexes
open Verif.Placement

/-- Conversion of a `size_t` to `int` (low 32 bits, two's complement), Acquisition.cpp:250, 251, 254. -/
def toInt (n : Nat) : Int := ((n % 4294967296 : Nat) : Int) - (if n % 4294967296 < 2147483648 then 0 else 4294967296)

/-- Conversion of an `int` to `size_t` where it meets one, Acquisition.cpp:251, 252. -/
def toSize (i : Int) : Nat := (i % 18446744073709551616).toNat

/-- The first index, Acquisition.cpp:250: `file_number * frames_per_block_ + 1` in `size_t`. -/
def low (g : Geom) (file : Nat) : Int := toInt ((file * g.fpb + 1) % 18446744073709551616)

/-- The last index as first computed, Acquisition.cpp:251: `low_index + frames_per_block_ - 1` in
`size_t`. -/
def high0 (g : Geom) (file : Nat) : Int :=
  toInt ((toSize (low g file) + g.fpb + 18446744073709551615) % 18446744073709551616)

/-- The last index, Acquisition.cpp:251-255: the total number of frames if there is one file only or
if the first result (converted to `size_t` by the comparison) is above it. -/
def high (g : Geom) (total file : Nat) : Int :=
  if g.bpf = 0 ∨ total < toSize (high0 g file) then toInt total else high0 g file

/-- The two attributes `image_nr_low` and `image_nr_high` of a dataset of the file with number `file`
(Acquisition.cpp:244-256, HDF5File.cpp:520-535): none unless asked for, -1 and -1 unless a block has
more than one frame. -/
def indexes (g : Geom) (total file : Nat) (create : Bool) : Option (Int × Int) :=
  if create = false then none
  else if 1 < g.fpb then some (low g file, high g total file)
  else some (-1, -1)

end Verif.Indexes
