import Verif.Model.Definitions
/-! Property C48: data type and compression names round-trip; unknown names map to "unknown". -/
namespace Verif

/-- C48: printing a data type and parsing the name gives the same type. -/
theorem C48_type_roundtrip (t : DataType) : typeFromString (typeName t) = t := by
  cases t <;> decide

/-- C48: the same for compression. -/
theorem C48_compression_roundtrip (c : Compression) :
    compressionFromString (compressionName c) = c := by
  cases c <;> decide

/-- C48: a string that parses to a known type is the name of that type: no two spellings, no typo
is ever taken for a real type. -/
theorem C48_type_exact (s : String) (h : typeFromString s ≠ .rawUnknown) :
    s = typeName (typeFromString s) := by
  unfold typeFromString at *
  repeat' split at h
  all_goals first | exact absurd rfl h | simp_all [typeName]

/-- C48: the same for compression. -/
theorem C48_compression_exact (s : String) (h : compressionFromString s ≠ .unknown) :
    s = compressionName (compressionFromString s) := by
  unfold compressionFromString at *
  repeat' split at h
  all_goals first | exact absurd rfl h | simp_all [compressionName]

/-- C48: exactly the known types have an element size (others raise an error), never zero. -/
theorem C48_size (t : DataType) :
    (typeSize t = none ↔ t = .rawUnknown) ∧ typeSize t ≠ some 0 := by
  cases t <;> simp [typeSize]

/-- Non-vacuity: a known name, and a misspelt one. -/
example : typeFromString "uint16" = .raw16 ∧ typeFromString "UINT16" = .rawUnknown ∧
    compressionFromString "lz4" = .unknown := by decide

end Verif
