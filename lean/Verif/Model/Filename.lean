/-
Model of file name generation.
Source: /repo/cpp/frameProcessor/src/Acquisition.cpp:654-677 (`generate_filename`), 372-379 (ext).
Strings are lists of characters.
-/
namespace Verif.Filename

/-- One decimal digit. -/
def digit (d : Nat) : Char := Char.ofNat (48 + d)

/-- Decimal printing of a `size_t` by printf (`%zu`). -/
def dec (n : Nat) : List Char :=
  if n < 10 then [digit n] else dec (n / 10) ++ [digit (n % 10)]
termination_by n

/-- `snprintf(number_string, 7, "%06zu", n)` into a 7 byte buffer, Acquisition.cpp:659-660: pad with
zeros to at least six characters, keep at most the first six (the seventh byte is the terminator). -/
def number6 (n : Nat) : List Char :=
  let s := dec n
  (List.replicate (6 - s.length) '0' ++ s).take 6

/-- The settings that enter the name (Acquisition.h members; set from FileWriterPlugin). -/
structure Cfg where
  configured : List Char       -- configured_filename_
  acqId : List Char            -- acquisition_id_
  postfixStr : List Char          -- file_postfix_
  ext : List Char        -- file_extension_
  useNumbers : Bool            -- use_file_numbers_
  start : Nat                  -- starting_file_index_
deriving Repr, DecidableEq

/-- Sanitising of the ext in `start_acquisition`, Acquisition.cpp:372-379. -/
def sanitiseExtension (e : List Char) : List Char :=
  match e with
  | [] => []
  | c :: cs => if c != '.' then '.' :: c :: cs else c :: cs

/-- `Acquisition::generate_filename`, Acquisition.cpp:654-677. -/
def generate (c : Cfg) (fileNumber : Nat) : List Char :=
  let number := number6 (fileNumber + c.start)
  let base :=
    if !c.configured.isEmpty then c.configured ++ c.postfixStr
    else if !c.acqId.isEmpty then c.acqId ++ c.postfixStr
    else []
  if !base.isEmpty then
    base ++ (if c.useNumbers then '_' :: number else []) ++ c.ext
  else base

end Verif.Filename
