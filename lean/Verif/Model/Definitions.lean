/-
Model of /repo/cpp/frameProcessor/include/FrameProcessorDefinitions.h.
-/
namespace Verif

/-- `enum DataType`, FrameProcessorDefinitions.h:20. -/
inductive DataType
  | rawUnknown | raw8 | raw16 | raw32 | raw64 | rawFloat
deriving Repr, DecidableEq

/-- `enum CompressionType`, FrameProcessorDefinitions.h:24. -/
inductive Compression
  | unknown | none | lz4 | bslz4 | blosc
deriving Repr, DecidableEq

/-- `get_type_from_string`, FrameProcessorDefinitions.h:39-54. -/
def typeFromString (s : String) : DataType :=
  if s = "unknown" then .rawUnknown
  else if s = "uint8" then .raw8
  else if s = "uint16" then .raw16
  else if s = "uint32" then .raw32
  else if s = "uint64" then .raw64
  else if s = "float" then .rawFloat
  else .rawUnknown

/-- `get_type_from_enum` over the table `DATA_TYPES`, FrameProcessorDefinitions.h:31, 89-97
(only the six enumerators; other integers cast to the enum are not modelled). -/
def typeName : DataType → String
  | .rawUnknown => "unknown" | .raw8 => "uint8" | .raw16 => "uint16" | .raw32 => "uint32"
  | .raw64 => "uint64" | .rawFloat => "float"

/-- `get_size_from_enum`, FrameProcessorDefinitions.h:61-78; `none` is the thrown runtime_error. -/
def typeSize : DataType → Option Nat
  | .raw8 => some 1 | .raw16 => some 2 | .raw32 => some 4 | .raw64 => some 8 | .rawFloat => some 4
  | .rawUnknown => none

/-- `get_compression_from_string`, FrameProcessorDefinitions.h:104-117. -/
def compressionFromString (s : String) : Compression :=
  if s = "unknown" then .unknown
  else if s = "none" then .none
  else if s = "LZ4" then .lz4
  else if s = "BSLZ4" then .bslz4
  else if s = "blosc" then .blosc
  else .unknown

/-- `get_compress_from_enum` over `COMPRESS_TYPES`, FrameProcessorDefinitions.h:32, 125-133. -/
def compressionName : Compression → String
  | .unknown => "unknown" | .none => "none" | .lz4 => "LZ4" | .bslz4 => "BSLZ4" | .blosc => "blosc"

end Verif
