import Verif.Model.PluginConfig
import Verif.Model.Definitions
/-!
Configuration of the file writer as sent and as reported.

* cpp/frameProcessor/src/FileWriterPlugin.cpp: constructor 78-104, `configure` 254-351, `requestConfiguration` 353-411, `configure_process` 426-519,
  `configure_file` 534-608, `configure_dataset` 627-707, `create_new_dataset` 715-734, `delete_datasets` 739-743

The writer is not writing (changes while it writes are refused, Model/FileWriter). The number of frames to write, calculated from the total, is not
part of the report. An exception is `none`; what was set before it is not modelled. The datasets are kept as a list, the code has a map.
-/
namespace Verif.PluginConfig
open Verif.Ipc

/-- `DatasetDefinition` as far as it is configured; defaults of `create_new_dataset`. -/
structure Dset where
  dtype : DataType := .raw8
  compression : Compression := .none
  compressor : Nat := 0                    -- unsigned int
  level : Nat := 0
  shuffle : Nat := 0
  dims : List Nat := []                    -- std::vector<unsigned long long>
  chunks : List Nat := []
  indexes : Bool := false
deriving DecidableEq, Repr

/-- FileWriterPlugin.cpp:78-104 and Acquisition.cpp:40-56. -/
structure Writer where
  number : Nat := 1                        -- size_t
  rank : Nat := 0
  block : Nat := 1
  blocks : Nat := 0
  earliest : Bool := false
  threshold : Nat := 1
  alignment : Nat := 1
  path : Str := []                         -- of the next acquisition
  pre : Str := []
  useNumbers : Bool := true
  first : Nat := 0                         -- uint32_t
  post : Str := []
  extension : Str := "h5".toList
  create : Nat := 0                        -- unsigned int
  write : Nat := 0
  flush : Nat := 0
  close : Nat := 0
  frames : Nat := 0                        -- size_t
  master : Str := []
  acqId : Str := []
  timeout : Nat := 0
  datasets : List (Str × Dset) := []
  nack : Bool := false                     -- the reply to the message is a refusal
deriving DecidableEq, Repr

/-- `int` to `uint32_t`. -/
def toUint32 (i : Int) : Nat := if 0 ≤ i then i.toNat else (i + 4294967296).toNat

/-- The loops over an array with `GetUint64`. -/
def asUints : Json → Option (List Nat)
  | .arr l => l.mapM Json.asUint64
  | _ => none

/-- Frames per block; zero is refused unless it is the value already. -/
def Writer.setBlock (s : Writer) (v : Nat) : Option Writer :=
  if s.block ≠ v ∧ v < 1 then none else some { s with block := v }

/-- `upd` with a setter that can throw. -/
def updM {α σ : Type} (s : σ) (f : σ → α → Option σ) (x : Option (Option α)) : Option σ :=
  match x with
  | none => none
  | some none => some s
  | some (some v) => f s v

/-- FileWriterPlugin.cpp:426-519. -/
def Writer.process (s : Writer) (j : Json) : Option Writer :=
  (upd s (fun s v => { s with number := v }) (field j "number".toList Json.asUint64)).bind fun s =>
  (upd s (fun s v => { s with rank := v }) (field j "rank".toList Json.asUint64)).bind fun s =>
  (updM s Writer.setBlock (field j "frames_per_block".toList Json.asUint64)).bind fun s =>
  (upd s (fun s v => { s with blocks := v }) (field j "blocks_per_file".toList Json.asUint64)).bind fun s =>
  (upd s (fun s v => { s with earliest := v }) (field j "earliest_version".toList Json.asBool)).bind fun s =>
  (upd s (fun s v => { s with threshold := v }) (field j "alignment_threshold".toList Json.asUint64)).bind fun s =>
  upd s (fun s v => { s with alignment := v }) (field j "alignment_value".toList Json.asUint64)

/-- FileWriterPlugin.cpp:538-570; `ok` says which paths are directories that can be written to. -/
def Writer.setPath (ok : Str → Bool) (s : Writer) (v : Str) : Writer := if ok v then { s with path := v } else { s with nack := true }

/-- FileWriterPlugin.cpp:534-608. -/
def Writer.file (ok : Str → Bool) (s : Writer) (j : Json) : Option Writer :=
  (upd s (Writer.setPath ok) (field j "path".toList Json.asStr)).bind fun s =>
  (upd s (fun s v => { s with pre := v }) (field j "prefix".toList Json.asStr)).bind fun s =>
  (upd s (fun s v => { s with useNumbers := v }) (field j "use_numbers".toList Json.asBool)).bind fun s =>
  (upd s (fun s v => { s with first := toUint32 v }) (field j "first_number".toList Json.asInt)).bind fun s =>
  (upd s (fun s v => { s with post := v }) (field j "postfix".toList Json.asStr)).bind fun s =>
  (upd s (fun s v => { s with extension := v }) (field j "extension".toList Json.asStr)).bind fun s =>
  (upd s (fun s v => { s with create := v }) (field j "create_error_duration".toList Json.asUint)).bind fun s =>
  (upd s (fun s v => { s with write := v }) (field j "write_error_duration".toList Json.asUint)).bind fun s =>
  (upd s (fun s v => { s with flush := v }) (field j "flush_error_duration".toList Json.asUint)).bind fun s =>
  upd s (fun s v => { s with close := v }) (field j "close_error_duration".toList Json.asUint)

/-- Dimensions, with the default chunks: FileWriterPlugin.cpp:639-657. -/
def Dset.setDims (d : Dset) (v : List Nat) : Dset := { d with dims := v, chunks := 1 :: v }

/-- FileWriterPlugin.cpp:627-707. -/
def Dset.configure (d : Dset) (j : Json) : Option Dset :=
  (upd d (fun d v => { d with dtype := typeFromString (String.ofList v) }) (field j "datatype".toList Json.asStr)).bind fun d =>
  (upd d Dset.setDims (field j "dims".toList asUints)).bind fun d =>
  (upd d (fun d v => { d with chunks := v }) (field j "chunks".toList asUints)).bind fun d =>
  (upd d (fun d v => { d with compression := compressionFromString (String.ofList v) }) (field j "compression".toList Json.asStr)).bind fun d =>
  (upd d (fun d v => { d with compressor := v }) (field j "blosc_compressor".toList Json.asUint)).bind fun d =>
  (upd d (fun d v => { d with level := v }) (field j "blosc_level".toList Json.asUint)).bind fun d =>
  (upd d (fun d v => { d with shuffle := v }) (field j "blosc_shuffle".toList Json.asUint)).bind fun d =>
  upd d (fun d v => { d with indexes := v }) (field j "indexes".toList Json.asBool)

/-- An element of the map. -/
def lookD (l : List (Str × Dset)) (k : Str) : Option Dset :=
  match l with
  | [] => none
  | (n, d) :: l => if n = k then some d else lookD l k

/-- `create_new_dataset`. -/
def createD (l : List (Str × Dset)) (k : Str) : List (Str × Dset) :=
  match lookD l k with
  | some _ => l
  | none => setKey l k {}

/-- `create_new_dataset` and `configure_dataset`. -/
def oneDset (l : List (Str × Dset)) (k : Str) (sub : Json) : Option (List (Str × Dset)) :=
  (Dset.configure ((lookD (createD l k) k).getD {}) sub).map (setKey (createD l k) k)

/-- FileWriterPlugin.cpp:289-297, the loop over the datasets of the message. -/
def allDsets (l : List (Str × Dset)) (j : Json) : List Str → Option (List (Str × Dset))
  | [] => some l
  | k :: ks =>
    match getParam (some j) k with
    | none => none
    | some sub => (oneDset l k sub).bind fun l => allDsets l j ks

/-- FileWriterPlugin.cpp:275-298. -/
def dsets (l : List (Str × Dset)) (j : Json) : Option (List (Str × Dset)) :=
  match hasParam (some j) "dataset".toList with
  | none => none
  | some false => some l
  | some true =>
    match getParam (some j) "dataset".toList with
    | some (.str k) => some (createD l k)
    | some (.obj m) => allDsets l (.obj m) (m.map (·.1))
    | _ => none

/-- A part of the message that is a message itself. -/
def part (s : Writer) (j : Json) (k : Str) (f : Writer → Json → Option Writer) : Option Writer := updM s f (field j k some)

/-- `if (config.has_param(CONFIG_DELETE_DATASETS))`. -/
def delete (l : List (Str × Dset)) (j : Json) : Option (List (Str × Dset)) :=
  (hasParam (some j) "delete_datasets".toList).map (fun b => if b then [] else l)

/-- FileWriterPlugin.cpp:254-351; the value of `start_timeout_timer` is read only. -/
def Writer.configure (ok : Str → Bool) (s : Writer) (j : Json) : Option Writer :=
  (part { s with nack := false } j "process".toList Writer.process).bind fun s =>
  (part s j "file".toList (Writer.file ok)).bind fun s =>
  ((dsets s.datasets j).map (fun l => { s with datasets := l })).bind fun s =>
  ((delete s.datasets j).map (fun l => { s with datasets := l })).bind fun s =>
  (upd s (fun s v => { s with frames := v }) (field j "frames".toList Json.asUint64)).bind fun s =>
  (upd s (fun s v => { s with master := v }) (field j "master".toList Json.asStr)).bind fun s =>
  (upd s (fun s v => { s with acqId := v }) (field j "acquisition_id".toList Json.asStr)).bind fun s =>
  (upd s (fun s v => { s with timeout := v }) (field j "timeout_timer_period".toList Json.asUint64)).bind fun s =>
  upd s (fun s _ => s) (field j "start_timeout_timer".toList Json.asBool)

/-- `(int)` of an unsigned number of 64 bits. -/
def toInt (n : Nat) : Int :=
  let m := n % 4294967296
  if m < 2147483648 then (m : Int) else (m : Int) - 4294967296

/-- FileWriterPlugin.cpp:386-408, one dataset. -/
def Dset.report (k : Str) (d : Dset) : List Item :=
  [.val ["dataset".toList, k, "datatype".toList] (.str (typeName d.dtype).toList),
   .val ["dataset".toList, k, "compression".toList] (.str (compressionName d.compression).toList),
   .val ["dataset".toList, k, "blosc_compressor".toList] (.num (toInt d.compressor)),
   .val ["dataset".toList, k, "blosc_level".toList] (.num (toInt d.level)),
   .val ["dataset".toList, k, "blosc_shuffle".toList] (.num (toInt d.shuffle)),
   .elems ["dataset".toList, k, "dims".toList] (d.dims.map (fun x => .num (toInt x))),
   .elems ["dataset".toList, k, "chunks".toList] (d.chunks.map (fun x => .num (toInt x)))]

/-- FileWriterPlugin.cpp:356-381. -/
def Writer.top (s : Writer) : List Item :=
  [.val ["process".toList, "number".toList] (.num s.number),
   .val ["process".toList, "rank".toList] (.num s.rank),
   .val ["process".toList, "frames_per_block".toList] (.num s.block),
   .val ["process".toList, "blocks_per_file".toList] (.num s.blocks),
   .val ["process".toList, "earliest_version".toList] (.bool s.earliest),
   .val ["process".toList, "alignment_threshold".toList] (.num s.threshold),
   .val ["process".toList, "alignment_value".toList] (.num s.alignment),
   .val ["file".toList, "path".toList] (.str s.path),
   .val ["file".toList, "prefix".toList] (.str s.pre),
   .val ["file".toList, "use_numbers".toList] (.bool s.useNumbers),
   .val ["file".toList, "first_number".toList] (.num s.first),
   .val ["file".toList, "postfix".toList] (.str s.post),
   .val ["file".toList, "extension".toList] (.str s.extension),
   .val ["file".toList, "create_error_duration".toList] (.num s.create),
   .val ["file".toList, "write_error_duration".toList] (.num s.write),
   .val ["file".toList, "flush_error_duration".toList] (.num s.flush),
   .val ["file".toList, "close_error_duration".toList] (.num s.close),
   .val ["frames".toList] (.num s.frames),
   .val ["master".toList] (.str s.master),
   .val ["acquisition_id".toList] (.str s.acqId),
   .val ["timeout_timer_period".toList] (.num s.timeout)]

/-- FileWriterPlugin.cpp:353-411. -/
def Writer.report (s : Writer) : List Item := s.top ++ s.datasets.flatMap (fun x => x.2.report x.1)

end Verif.PluginConfig
