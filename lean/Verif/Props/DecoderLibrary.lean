import Verif.Model.DecoderLibrary

/-
C192: The frame decoder is loaded from the library of its type in the configured directory.
-/
namespace Verif.DecoderLibrary
open Verif.Receiver
open Verif.Ipc (Str)

/-- The name of a file without its directory. -/
def base : Str → Str
  | [] => []
  | c :: l => if '/' ∈ l then base l else if c = '/' then l else c :: l

/-- The directory of a file is the path: the file is the path, a slash if the path has none at its end, and the name. -/
def inside (path file : Str) : Prop :=
  (path.getLast? = some '/' ∧ file = path ++ base file) ∨ (path.getLast? ≠ some '/' ∧ file = path ++ '/' :: base file)

/-- C192, in full. -/
def C192_statement : Prop :=
  ∀ path type : Str, path ≠ [] →
    inside path (library path type) ∧ base (library path type) = "lib".toList ++ type ++ "FrameDecoder.so".toList

theorem base_plain (l : Str) (h : '/' ∉ l) : base l = l := by
  cases l with
  | nil => rfl
  | cons c l =>
    rw [base, if_neg (fun x => h (List.mem_cons_of_mem _ x)), if_neg (by rintro rfl; exact h (List.mem_cons_self ..))]

theorem base_slash (p l : Str) (h : '/' ∉ l) : base (p ++ '/' :: l) = l := by
  induction p with
  | nil => rw [List.nil_append, base, if_neg h, if_pos rfl]
  | cons c p ih => rw [List.cons_append, base, if_pos (List.mem_append_right _ (List.mem_cons_self ..)), ih]

theorem slashed_ends (p : Str) : ∃ q, slashed p = q ++ ['/'] := by
  unfold slashed
  split
  · rename_i h
    obtain ⟨q, hq⟩ := List.getLast?_eq_some_iff.1 h
    exact ⟨q, hq⟩
  · exact ⟨p, rfl⟩

theorem libName_eq (t : Str) : libName t = "lib".toList ++ t ++ "FrameDecoder.so".toList := by
  unfold libName
  rw [List.append_assoc]; rfl

theorem libName_plain (t : Str) (h : '/' ∉ t) : '/' ∉ libName t := by
  rw [libName_eq]
  intro hm
  rcases List.mem_append.1 hm with hm | hm
  · rcases List.mem_append.1 hm with hm | hm
    · revert hm; decide
    · exact h hm
  · revert hm; decide

/-- The type is put into the name as it is: with a slash in it the library is in another directory. -/
theorem C192_violated : ¬ C192_statement := by
  intro h
  have := (h "/opt/lib/".toList "/../../tmp/x".toList (by decide)).2
  revert this
  decide +kernel

/-- Which library that is. -/
theorem C192_elsewhere :
    library "/opt/lib/".toList "/../../tmp/x".toList = "/opt/lib/lib/../../tmp/xFrameDecoder.so".toList := by decide +kernel

/-- With no slash in the type the library is in the directory, and has the name of the type. -/
theorem C192_partial (path type : Str) (ht : '/' ∉ type) :
    inside path (library path type) ∧ base (library path type) = "lib".toList ++ type ++ "FrameDecoder.so".toList := by
  have hl := libName_plain type ht
  have hb : base (library path type) = libName type := by
    obtain ⟨q, hq⟩ := slashed_ends path
    rw [library, hq, List.append_assoc]
    exact base_slash q _ hl
  refine ⟨?_, by rw [hb, libName_eq]⟩
  by_cases h : path.getLast? = some '/'
  · refine Or.inl ⟨h, ?_⟩
    rw [hb, library, slashed, if_pos h]
  · refine Or.inr ⟨h, ?_⟩
    rw [hb, library, slashed, if_neg h, List.append_assoc]; rfl

/-- Whether or not the path is given with a slash at its end makes no difference. -/
theorem C192_slash (path type : Str) (h : path.getLast? ≠ some '/') : library (path ++ ['/']) type = library path type := by
  rw [library, library, slashed, slashed, if_neg h, if_pos (by simp)]

/-- Different types are different classes in different libraries, whatever they contain. -/
theorem C192_distinct (path t u : Str) (h : t ≠ u) : library path t ≠ library path u ∧ clsName t ≠ clsName u := by
  refine ⟨fun he => h ?_, fun he => h (List.append_cancel_right he)⟩
  have := List.append_cancel_left he
  rw [libName_eq, libName_eq] at this
  exact List.append_cancel_left (List.append_cancel_right this)

/-- The empty path is undefined behaviour, which a client can cause: the last character of it is looked at (line 455). -/
theorem C192_empty (s : St) : (setPath (.obj [("decoder_path".toList, .str [])]) s).2 = .ub := by
  simp [setPath, paramOr, param, Ipc.Json.asStr, Ipc.findM]

/-- Concrete cases. -/
example : library "/opt/lib".toList "DummyUDP".toList = "/opt/lib/libDummyUDPFrameDecoder.so".toList ∧
    library "/opt/lib/".toList "DummyUDP".toList = "/opt/lib/libDummyUDPFrameDecoder.so".toList ∧
    clsName "DummyUDP".toList = "DummyUDPFrameDecoder".toList := by decide +kernel

example : '/' ∉ "DummyUDP".toList ∧ "/opt/lib".toList.getLast? ≠ some '/' := by decide

end Verif.DecoderLibrary
