import Verif.Model.ElementType
import Verif.Props.Acquisition
/-! Property C178: a dataset has the type it was configured with, and that of its frames. -/
namespace Verif.ElementType

/-! ## Specification -/

/-- A type of numbers and the number of its bytes. -/
inductive Num
  | unsigned (bytes : Nat)
  | signed (bytes : Nat)
  | float (bytes : Nat)
deriving DecidableEq, Repr

/-- What the names of types mean. -/
def meaning (s : String) : Option Num :=
  if s = "uint8" then some (.unsigned 1) else if s = "uint16" then some (.unsigned 2)
  else if s = "uint32" then some (.unsigned 4) else if s = "uint64" then some (.unsigned 8)
  else if s = "int8" then some (.signed 1) else if s = "int16" then some (.signed 2)
  else if s = "int32" then some (.signed 4) else if s = "int64" then some (.signed 8)
  else if s = "float" then some (.float 4) else if s = "double" then some (.float 8)
  else none

/-- What a reader finds in the file. -/
def HType.num : HType → Num
  | .u8 => .unsigned 1 | .u16 => .unsigned 2 | .u32 => .unsigned 4 | .u64 => .unsigned 8 | .f32 => .float 4

/-- What is in a frame that says that it is of a type. -/
def content : DataType → Option Num
  | .raw8 => some (.unsigned 1) | .raw16 => some (.unsigned 2) | .raw32 => some (.unsigned 4) | .raw64 => some (.unsigned 8)
  | .rawFloat => some (.float 4) | .rawUnknown => none

/-- The filter needed to read the image of a frame; `none`: not known. -/
def needed : Compression → Option (Option Filter)
  | .none => some none | .lz4 => some (some .lz4) | .bslz4 => some (some .bslz4) | .blosc => some (some .blosc)
  | .unknown => none

/-- What a parameter is. -/
def Dataset.Any.num : Dataset.Any → Option Num
  | .u8 _ => some (.unsigned 1) | .u16 _ => some (.unsigned 2) | .u32 _ => some (.unsigned 4) | .u64 _ => some (.unsigned 8)
  | .float _ => some (.float 4) | .other => none

/-- C178, full statement: after a configuration that was acknowledged the dataset in the file is of the type named. -/
def C178_statement : Prop :=
  ∀ (d : Acq.DatasetDef) (type compression : String),
    let d := configure d type compression
    meaning type = some (create d.dataType d.compression).type.num

/-! ## Proofs -/

/-- A name that is not known is acknowledged, and the dataset has unsigned 16 bit numbers. -/
theorem C178_violated : ¬ C178_statement := by
  intro h
  have h1 := h ⟨"data", .raw8, [], [1], .none⟩ "int32" "none"
  revert h1; decide

/-- More names that lead to unsigned 16 bit numbers: any but five. -/
theorem C178_unknown (d : Acq.DatasetDef) (type compression : String)
    (h : type ∉ ["uint8", "uint16", "uint32", "uint64", "float"]) :
    (create (configure d type compression).dataType (configure d type compression).compression).type = .u16 := by
  simp only [List.mem_cons, List.not_mem_nil, or_false, not_or] at h
  obtain ⟨h1, h2, h3, h4, h5⟩ := h
  have : typeFromString type = .rawUnknown := by
    unfold typeFromString
    rw [if_neg h1, if_neg h2, if_neg h3, if_neg h4, if_neg h5, ite_self]
  show hdfType (typeFromString type) = .u16
  rw [this]; rfl

example : "double" ∉ ["uint8", "uint16", "uint32", "uint64", "float"] ∧ meaning "double" = some (.float 8) := by decide

/-- C178, proved part, configuration: for the five names that the code knows the type in the file is the one named, its size is the one that
the plugins reckon with, and what was not written reads as bytes 0, as many as an element has. -/
theorem C178_partial (d : Acq.DatasetDef) (type compression : String) (h : type ∈ ["uint8", "uint16", "uint32", "uint64", "float"]) :
    meaning type = some (create (configure d type compression).dataType (configure d type compression).compression).type.num ∧
    typeSize (configure d type compression).dataType =
      some (create (configure d type compression).dataType (configure d type compression).compression).type.size ∧
    (create (configure d type compression).dataType (configure d type compression).compression).fill =
      List.replicate (create (configure d type compression).dataType (configure d type compression).compression).type.size 0 := by
  simp only [List.mem_cons, List.not_mem_nil, or_false] at h
  rcases h with rfl | rfl | rfl | rfl | rfl <;> refine ⟨?_, ?_, ?_⟩ <;> rfl

example : meaning "uint32" = some (.unsigned 4) ∧
    (create (configure ⟨"data", .raw8, [], [1], .none⟩ "uint32" "LZ4").dataType .lz4).type = .u32 := by decide

/-- The filter that the name of a compression asks for; `none`: no such name. -/
def asked (s : String) : Option (Option Filter) :=
  if s = "none" then some none else if s = "LZ4" then some (some .lz4) else if s = "BSLZ4" then some (some .bslz4)
  else if s = "blosc" then some (some .blosc) else none

/-- C178, proved part, compression: the file has the filter that was named, whatever the type; any other name gives none. -/
theorem C178_filter_partial (d : Acq.DatasetDef) (type compression : String) :
    (create (configure d type compression).dataType (configure d type compression).compression).filter = (asked compression).getD none := by
  show filter (compressionFromString compression) = _
  unfold compressionFromString asked
  by_cases h0 : compression = "unknown"
  · subst h0; rfl
  rw [if_neg h0]
  by_cases h1 : compression = "none"
  · rw [if_pos h1, if_pos h1]; rfl
  rw [if_neg h1, if_neg h1]
  by_cases h2 : compression = "LZ4"
  · rw [if_pos h2, if_pos h2]; rfl
  rw [if_neg h2, if_neg h2]
  by_cases h3 : compression = "BSLZ4"
  · rw [if_pos h3, if_pos h3]; rfl
  rw [if_neg h3, if_neg h3]
  by_cases h4 : compression = "blosc"
  · rw [if_pos h4, if_pos h4]; rfl
  rw [if_neg h4, if_neg h4]; rfl

example : (create (configure ⟨"data", .raw8, [], [1], .none⟩ "uint32" "BSLZ4").dataType .bslz4).filter = some .bslz4 := by decide

/-- C178, proved part, frames: whatever was configured, a frame that changes the file or is accepted is of the type of its dataset, needs
exactly the filter of the dataset, and has elements of the size of those in the file. -/
theorem C178_frames_partial (e : Acq.Env) (a : Acq.Acq) (f : Acq.Frame)
    (h : (Acq.processFrame e a f).2.good ∨ (Acq.processFrame e a f).1.disk ≠ a.disk) :
    ∃ d, Acq.findDef a.defs f.dataset = some d ∧
      content f.dataType = some (create d.dataType d.compression).type.num ∧
      needed f.compression = some (create d.dataType d.compression).filter ∧
      typeSize f.dataType = some (create d.dataType d.compression).type.size := by
  obtain ⟨d, h1, h2, h3, h4, h5, _⟩ := Acq.C07_written_matches e a f h
  refine ⟨d, h1, ?_, ?_, ?_⟩
  · show content f.dataType = some (hdfType d.dataType).num
    rw [← h3]
    cases hd : f.dataType with
    | rawUnknown => exact absurd hd h2
    | _ => rfl
  · show needed f.compression = some (filter d.compression)
    rw [← h5]
    cases hd : f.compression with
    | unknown => exact absurd hd h4
    | _ => rfl
  · show typeSize f.dataType = some (hdfType d.dataType).size
    rw [← h3]
    cases hd : f.dataType with
    | rawUnknown => exact absurd hd h2
    | _ => rfl

example : (Acq.processFrame Acq.okEnv Acq.exStart (Acq.exFrame 2 70)).2.good ∧
    content (Acq.exFrame 2 70).dataType = some (.unsigned 2) := ⟨Or.inl (by decide +kernel), rfl⟩

/-- C178, proved part, parameters: one that is stored at all is of the type of its dataset, so that `H5Dwrite` is told the type of
the variable it is given. -/
theorem C178_params_partial (t : DataType) (c : Compression) (x : Dataset.Any) (v : Nat) (h : Dataset.value t x = some v) :
    Dataset.Any.num x = some (create t c).type.num := by
  cases t <;> cases x <;> first | rfl | cases h

example : Dataset.value .raw64 (.u64 7) = some 7 ∧ Dataset.value .raw64 (.u32 7) = none := by decide

end Verif.ElementType
