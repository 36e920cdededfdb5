import Verif.Model.HalfConfig
import Verif.Model.WriterConfig
import Verif.Model.Acquisition
/-
What a configuration that is refused leaves behind in the file writer.
Source: /repo/cpp/frameProcessor/src/FileWriterPlugin.cpp: `configure` 254-351, `configure_process` 426-519, `configure_file` 534-608, `configure_dataset`
627-707, `create_new_dataset` 715-734, `delete_datasets` 739-743.

As Verif.PluginConfig.Writer.configure, with the state in which an exception leaves the writer, and with a writer that may be writing. The number of
frames of this process (`calc_num_frames`, 305) is not modelled.
-/
namespace Verif.HalfConfig
open Verif.Ipc Verif.PluginConfig

/-- A value that is refused for what it is. -/
def checkedStore {α σ : Type} (bad : σ → α → Bool) (f : σ → α → σ) (s : σ) : Option α → σ × Out
  | some a => if bad s a then (s, .refused) else (f s a, .ok)
  | none => (s, .refused)

def checked {α σ : Type} (name : Str) (conv : Json → Option α) (bad : σ → α → Bool) (f : σ → α → σ) : Stage σ :=
  { name, given := fun s v => checkedStore bad f s (conv v) }

/-- FileWriterPlugin.cpp:426-519. `w`: the writer is writing. -/
def processStages (w : Bool) : List (Stage Writer) :=
  [checked "number".toList Json.asUint64 (fun s v => w && decide (s.number ≠ v)) fun s v => { s with number := v },
   checked "rank".toList Json.asUint64 (fun s v => w && decide (s.rank ≠ v)) fun s v => { s with rank := v },
   checked "frames_per_block".toList Json.asUint64 (fun s v => decide (s.block ≠ v) && (decide (v < 1) || w)) fun s v => { s with block := v },
   checked "blocks_per_file".toList Json.asUint64 (fun s v => w && decide (s.blocks ≠ v)) fun s v => { s with blocks := v },
   plain "earliest_version".toList Json.asBool fun s v => { s with earliest := v },
   plain "alignment_threshold".toList Json.asUint64 fun s v => { s with threshold := v },
   plain "alignment_value".toList Json.asUint64 fun s v => { s with alignment := v }]

/-- FileWriterPlugin.cpp:534-608; a path that is no directory refuses the message in the reply, and the rest is taken over. -/
def fileStages (ok : Str → Bool) : List (Stage Writer) :=
  [plain "path".toList Json.asStr (Writer.setPath ok), plain "prefix".toList Json.asStr fun s v => { s with pre := v },
   plain "use_numbers".toList Json.asBool fun s v => { s with useNumbers := v }, plain "first_number".toList Json.asInt fun s v => { s with first := toUint32 v },
   plain "postfix".toList Json.asStr fun s v => { s with post := v }, plain "extension".toList Json.asStr fun s v => { s with extension := v },
   plain "create_error_duration".toList Json.asUint fun s v => { s with create := v }, plain "write_error_duration".toList Json.asUint fun s v => { s with write := v },
   plain "flush_error_duration".toList Json.asUint fun s v => { s with flush := v }, plain "close_error_duration".toList Json.asUint fun s v => { s with close := v }]

/-- FileWriterPlugin.cpp:627-707 works on a copy, which is stored at the end. -/
def storeDset (l : List (Str × Dset)) (k : Str) : Option Dset → List (Str × Dset) × Out
  | some d => (setKey l k d, .ok)
  | none => (l, .refused)

/-- FileWriterPlugin.cpp:292-295: the dataset is made before its definition is looked at. -/
def halfOne (l : List (Str × Dset)) (k : Str) : Option Json → List (Str × Dset) × Out
  | some sub => storeDset (createD l k) k (Dset.configure ((lookD (createD l k) k).getD {}) sub)
  | none => (createD l k, .refused)

/-- FileWriterPlugin.cpp:289-297. -/
def halfAll (j : Json) : List Str → List (Str × Dset) → List (Str × Dset) × Out
  | [], l => (l, .ok)
  | k :: ks, l => match (halfOne l k (getParam (some j) k)).2 with
    | .ok => halfAll j ks (halfOne l k (getParam (some j) k)).1
    | o => ((halfOne l k (getParam (some j) k)).1, o)

/-- FileWriterPlugin.cpp:275-298. -/
def datasets (s : Writer) : Json → Writer × Out
  | .str k => ({ s with datasets := createD s.datasets k }, .ok)
  | .obj m => ({ s with datasets := (halfAll (.obj m) (m.map (·.1)) s.datasets).1 }, (halfAll (.obj m) (m.map (·.1)) s.datasets).2)
  | _ => (s, .refused)

/-- FileWriterPlugin.cpp:261-343. -/
def writerStages (w : Bool) (ok : Str → Bool) : List (Stage Writer) :=
  [{ name := "process".toList, given := run (processStages w) }, { name := "file".toList, given := run (fileStages ok) },
   { name := "dataset".toList, given := datasets }, { name := "delete_datasets".toList, given := fun s _ => ({ s with datasets := [] }, .ok) },
   plain "frames".toList Json.asUint64 fun s v => { s with frames := v }, plain "master".toList Json.asStr fun s v => { s with master := v },
   plain "acquisition_id".toList Json.asStr fun s v => { s with acqId := v }, plain "timeout_timer_period".toList Json.asUint64 fun s v => { s with timeout := v },
   plain "start_timeout_timer".toList Json.asBool fun s _ => s]

/-- The whole message; the reply is not a refusal at first. -/
def writer (w : Bool) (ok : Str → Bool) (s : Writer) (j : Json) : Writer × Out := run (writerStages w ok) { s with nack := false } j

/-- Is the reply an error? -/
def refuses (r : Writer × Out) : Bool := r.2 == .refused || r.1.nack

end Verif.HalfConfig
