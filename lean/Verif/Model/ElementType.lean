import Verif.Model.Acquisition
import Verif.Model.Dataset
/-!
The type of the elements of a dataset and the filter it is read with.

* cpp/frameProcessor/src/HDF5File.cpp: `datatype_to_hdf_type` 624-653, `create_dataset` 412-413, 462-495 (the filter), 499-500 (the
  fill value), `write_parameter` 350
* cpp/frameProcessor/src/FileWriterPlugin.cpp: `configure_dataset` 634-636 (type), 673-675 (compression)
* cpp/frameProcessor/include/FrameProcessorDefinitions.h: the names, see Definitions

Of HDF5: `H5Tget_size` of the native types, on a machine with 8 bit bytes and 32 bit floats. Filters are only named; what they do is in
Blosc and Layout.
-/
namespace Verif.ElementType

/-- The types of HDF5 that are used. -/
inductive HType
  | u8 | u16 | u32 | u64 | f32
deriving DecidableEq, Repr

/-- `datatype_to_hdf_type`. -/
def hdfType : DataType → HType
  | .raw64 => .u64
  | .raw32 => .u32
  | .raw16 => .u16
  | .raw8 => .u8
  | .rawFloat => .f32
  | .rawUnknown => .u16

/-- `H5Tget_size`. -/
def HType.size : HType → Nat
  | .u8 => 1 | .u16 => 2 | .u32 => 4 | .u64 => 8 | .f32 => 4

/-- The filters of HDF5 that are used: LZ4_FILTER, BSLZ4_FILTER, BLOSC_FILTER. -/
inductive Filter
  | lz4 | bslz4 | blosc
deriving DecidableEq, Repr

/-- Lines 462-495; with an unknown compression there is no filter. -/
def filter : Compression → Option Filter
  | .none => none
  | .lz4 => some .lz4
  | .bslz4 => some .bslz4
  | .blosc => some .blosc
  | .unknown => none

/-- What is in the file about the elements of a dataset. -/
structure Stored where
  type : HType
  filter : Option Filter
  fill : List Nat          -- the bytes of the fill value
deriving DecidableEq, Repr

/-- `create_dataset`; the first bytes of `fill_value` are taken, as many as the type has. -/
def create (t : DataType) (c : Compression) : Stored := ⟨hdfType t, filter c, ([0, 0, 0, 0, 0, 0, 0, 0] : List Nat).take (hdfType t).size⟩

/-- `configure_dataset` with a type and a compression: any string is taken. -/
def configure (d : Acq.DatasetDef) (type compression : String) : Acq.DatasetDef :=
  { d with dataType := typeFromString type, compression := compressionFromString compression }

end Verif.ElementType
