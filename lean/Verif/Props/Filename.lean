import Verif.Lemmas.Filename
/-! Property C03: distinct file numbers give distinct file names. -/
namespace Verif.Filename

/-- A usable naming configuration: numbering is on and there is a file name or acquisition id. -/
def Usable (c : Cfg) : Prop :=
  c.useNumbers = true ∧ (c.configured ≠ [] ∨ c.acqId ≠ [])

/-- C03, full statement (false, see `C03_violated`). -/
def C03_statement : Prop :=
  ∀ (c : Cfg) (i j : Nat), Usable c → generate c i = generate c j → i = j

/-- C03 is violated by the code: the number is cut to six characters, so file 100000 and file
1000000 get the same name ("run_100000.h5"). -/
theorem C03_violated : ¬ C03_statement := by
  intro h
  have := h { configured := ['r', 'u', 'n'], acqId := [], postfixStr := [],
              ext := ['.', 'h', '5'], useNumbers := true, start := 0 } 100000 1000000
    ⟨rfl, Or.inl (by simp)⟩ (by decide +kernel)
  omega

/-- C03 is also violated when numbering is switched off: all files have one name. -/
theorem C03_no_numbers_same_name (c : Cfg) (h : c.useNumbers = false) (i j : Nat) :
    generate c i = generate c j := by
  simp [generate, h]

/-- C03, proved part: as long as file number plus starting index stays below one million the name
determines the file number. Missing: numbers of one million and above (false, `C03_violated`). -/
theorem C03_partial (c : Cfg) (i j : Nat) (hc : Usable c)
    (hi : i + c.start < 1000000) (hj : j + c.start < 1000000)
    (h : generate c i = generate c j) : i = j := by
  obtain ⟨hn, hb⟩ := hc
  have key : ∀ base ext : List Char, base ++ ('_' :: number6 (i + c.start)) ++ ext
      = base ++ ('_' :: number6 (j + c.start)) ++ ext → i = j := by
    intro base ext he
    have he := List.append_cancel_right he
    have he := List.append_cancel_left he
    have he := (List.cons.inj he).2
    have := number6_injective _ _ hi hj he
    omega
  unfold generate at h
  by_cases h1 : c.configured = []
  · have h2 : c.acqId ≠ [] := by
      rcases hb with hb | hb
      · exact absurd h1 hb
      · exact hb
    simp only [h1, List.isEmpty_nil, Bool.not_true, Bool.false_eq_true, if_false] at h
    have e : (!c.acqId.isEmpty) = true := by simpa using h2
    have e' : (!(c.acqId ++ c.postfixStr).isEmpty) = true := by simp [h2]
    simp only [e, if_true, e', hn] at h
    exact key _ _ h
  · have e : (!c.configured.isEmpty) = true := by simpa using h1
    have e' : (!(c.configured ++ c.postfixStr).isEmpty) = true := by simp [h1]
    simp only [e, if_true, e', hn] at h
    exact key _ _ h

/-- The name is non-empty exactly when a file name or acquisition id is set
(`start_acquisition` refuses an empty name, Acquisition.cpp:384-388). -/
theorem C03_nonempty (c : Cfg) (i : Nat) :
    generate c i ≠ [] ↔ (c.configured ≠ [] ∨ c.acqId ≠ []) := by
  unfold generate
  by_cases h1 : c.configured = [] <;> by_cases h2 : c.acqId = [] <;> simp [h1, h2]

/-- Non-vacuity of `C03_partial`, and what a name looks like. -/
example : generate
    { configured := "scan".toList, acqId := [], postfixStr := "_A".toList,
      ext := ".h5".toList, useNumbers := true, start := 1 } 41
    = "scan_A_000042.h5".toList := by
  decide +kernel

/-- Sanitising an extension makes it empty or start with a dot, and changes nothing the second time. -/
theorem sanitise_idempotent (e : List Char) :
    sanitiseExtension (sanitiseExtension e) = sanitiseExtension e ∧
    (e ≠ [] → (sanitiseExtension e).head? = some '.') := by
  cases e with
  | nil => simp [sanitiseExtension]
  | cons c cs =>
    by_cases h : c = '.' <;> simp [sanitiseExtension, h]

end Verif.Filename
