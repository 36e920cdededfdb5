import Verif.Model.PluginConfig
import Verif.Model.GapFillInt
/-
What a configuration that is refused leaves behind in a plugin.
Source: /repo/cpp/frameProcessor/src: OffsetAdjustmentPlugin.cpp `configure` 55-71, DummyUDPProcessPlugin.cpp `configure` 100-121, BloscPlugin.cpp
`configure` 241-309, GapFillPlugin.cpp `configure` 208-281, KafkaProducerPlugin.cpp `configure` 81-106, LiveViewPlugin.cpp `configure` 155-200,
ParameterAdjustmentPlugin.cpp `configure` 91-136; /repo/cpp/common/include/IpcMessage.h 58-61 (assertions throw), DebugLevelLogger.h 20-22.

Verif.PluginConfig says what an accepted configuration does; here also the state in which an exception leaves the plugin. The caller
(FrameProcessorController.cpp 155-201) refuses the message in its reply. The state of each plugin is that of Verif.PluginConfig.
-/
namespace Verif.HalfConfig
open Verif.Ipc Verif.PluginConfig

/-- How `configure` ends: it returns, it throws, or it has accessed memory outside of an array. -/
inductive Out
  | ok | refused | ub
deriving DecidableEq, Repr

/-- `if (config.has_param(name)) { … } else { … }`. -/
structure Stage (σ : Type) where
  name : Str
  given : σ → Json → σ × Out
  absent : σ → σ := id

/-- A value that is converted before anything is changed. -/
def store {α σ : Type} (f : σ → α → σ) (s : σ) : Option α → σ × Out
  | some a => (f s a, .ok)
  | none => (s, .refused)

def plain {α σ : Type} (name : Str) (conv : Json → Option α) (f : σ → α → σ) : Stage σ := { name, given := fun s v => store f s (conv v) }

/-- With the value of the parameter; `none`: `get_param` throws. -/
def Stage.value {σ : Type} (g : Stage σ) (s : σ) : Option Json → σ × Out
  | some v => g.given s v
  | none => (s, .refused)

/-- One such statement; `has_param` throws if the parameters are no object. -/
def Stage.enter {σ : Type} (g : Stage σ) (s : σ) (j : Json) : σ × Out :=
  match hasParam (some j) g.name with
  | none => (s, .refused)
  | some false => (g.absent s, .ok)
  | some true => g.value s (getParam (some j) g.name)

/-- One after the other, up to the first exception. -/
def run {σ : Type} : List (Stage σ) → σ → Json → σ × Out
  | [], s, _ => (s, .ok)
  | g :: gs, s, j =>
    match (g.enter s j).2 with
    | .ok => run gs (g.enter s j).1 j
    | o => ((g.enter s j).1, o)

/-- OffsetAdjustmentPlugin.cpp:55-71. -/
def offset : List (Stage Offset) := [plain "offset_adjustment".toList asInt64 fun _ v => { adjustment := v }]

/-- DummyUDPProcessPlugin.cpp:100-121. -/
def dummy : List (Stage Dummy) :=
  [plain "width".toList Json.asInt fun s v => { s with width := v }, plain "height".toList Json.asInt fun s v => { s with height := v },
   plain "copy_frame".toList Json.asBool fun s v => { s with copy := v }]

/-- BloscPlugin.cpp:241-309. -/
def blosc : List (Stage Blosc) :=
  [plain "level".toList Json.asInt fun s v => { s with level := capLevel v }, plain "shuffle".toList Json.asUint fun s v => { s with shuffle := capShuffle v },
   plain "threads".toList Json.asUint fun s v => { s with threads := capThreads v },
   plain "compressor".toList Json.asUint fun s v => { s with compressor := capCompressor v }]

/-- The elements of a vector after the loop, GapFillPlugin.cpp:216-219; those not reached are 0. -/
def filled : List Json → List Int
  | [] => []
  | v :: l => match v.asInt with
    | some i => i :: filled l
    | none => 0 :: l.map fun _ => 0

/-- Is every element an `int`? -/
def allInts (l : List Json) : Bool := l.all fun v => v.asInt.isSome

/-- GapFillPlugin.cpp:213-221 for an array: the message to the log reads the first two elements. -/
def readArray (logs : Bool) (l : List Json) : Out := if allInts l = false then .refused else if logs && decide (l.length < 2) then .ub else .ok

/-- GapFillPlugin.cpp:213-221, 226-234, 239-251, 256-268: the vector is cleared before `Size` looks at the type. -/
def vector {σ : Type} (logs : Bool) (set : σ → List Int → σ) (s : σ) : Json → σ × Out
  | .arr l => (set s (filled l), readArray logs l)
  | _ => (set s [], .refused)

/-- GapFillPlugin.cpp:208-281. `debug`: messages of debug level 1 are logged. -/
def gapFill (debug : Bool) : List (Stage PluginConfig.GapFill) :=
  [{ name := "grid_size".toList, given := vector debug fun s v => { s with grid := v } },
   { name := "chip_size".toList, given := vector debug fun s v => { s with chip := v } },
   { name := "x_gaps".toList, given := vector false fun s v => { s with gapsX := v } },
   { name := "y_gaps".toList, given := vector false fun s v => { s with gapsY := v } }]

/-- KafkaProducerPlugin.cpp:85-89: the producer is destroyed before the text is taken. -/
def servers (ok : Str → Bool) (s : Kafka) (v : Json) : Kafka × Out :=
  store (Kafka.setServers ok) { s with producer := false, used := none } v.asStr

/-- KafkaProducerPlugin.cpp:81-106. -/
def kafka (ok : Str → Bool) : List (Stage Kafka) :=
  [{ name := "servers".toList, given := servers ok }, plain "topic".toList Json.asStr Kafka.setTopic,
   plain "partition".toList Json.asUint fun s v => { s with partition := toInt32 v }, plain "dataset".toList Json.asStr fun s v => { s with dataset := v },
   plain "include_parameters".toList Json.asBool fun s v => { s with params := v }]

/-- LiveViewPlugin.cpp:155-200. -/
def live (ok : Str → Bool) : List (Stage Live) :=
  [plain "frame_frequency".toList Json.asInt fun s v => { s with freq := v }, plain "per_second".toList Json.asInt fun s v => { s with perSecond := v },
   plain "dataset_name".toList Json.asStr fun s v => { s with datasets := namesOf v }, plain "filter_tagged".toList Json.asStr fun s v => { s with tags := namesOf v },
   { name := "live_view_socket_addr".toList, given := fun s v => store (fun s v => s.address ok (some v)) s v.asStr, absent := fun s => s.address ok none }]

/-- ParameterAdjustmentPlugin.cpp:112-121: the input of a parameter whose adjustment has been set. -/
def input (s : Adjust) (k : Str) (sub : Json) : Adjust × Out :=
  match field sub "input".toList Json.asStr with
  | none => (s, .refused)
  | some i => ({ s with inputs := setKey s.inputs k (i.getD []) }, .ok)

/-- ParameterAdjustmentPlugin.cpp:106-121: one parameter. -/
def adjustOne (s : Adjust) (k : Str) (sub : Json) : Adjust × Out :=
  match (getParam (some sub) "adjustment".toList).bind asInt64 with
  | none => (s, .refused)
  | some a => input { s with adjustments := setKey s.adjustments k a } k sub

/-- ParameterAdjustmentPlugin.cpp:103-122. -/
def adjustAll (j : Json) : List Str → Adjust → Adjust × Out
  | [], s => (s, .ok)
  | k :: l, s =>
    match getParam (some j) k with
    | none => (s, .refused)
    | some sub => match (adjustOne s k sub).2 with
      | .ok => adjustAll j l (adjustOne s k sub).1
      | o => ((adjustOne s k sub).1, o)

/-- ParameterAdjustmentPlugin.cpp:96-128. -/
def parameters (s : Adjust) : Json → Adjust × Out
  | .obj l => if l = [] then ({}, .ok) else adjustAll (.obj l) (l.map (·.1)) s
  | _ => (s, .refused)

def adjust : List (Stage Adjust) := [{ name := "parameter".toList, given := parameters }]

end Verif.HalfConfig
