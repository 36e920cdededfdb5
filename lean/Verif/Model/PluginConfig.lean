import Verif.Model.Reply
/-!
Configuration of the plugins and what they report of it.

* cpp/frameProcessor/src/OffsetAdjustmentPlugin.cpp: `configure` 55-71, `requestConfiguration` 78-81
* cpp/frameProcessor/src/DummyUDPProcessPlugin.cpp: constructor 24-28, `configure` 100-121, `requestConfiguration` 131-138
* cpp/frameProcessor/src/BloscPlugin.cpp: constructor 55-64, `configure` 241-309, `requestConfiguration` 315-325
* cpp/frameProcessor/src/GapFillPlugin.cpp: `configure` 208-281, `requestConfiguration` 313-327
* cpp/frameProcessor/src/ParameterAdjustmentPlugin.cpp: `configure` 91-136, `requestConfiguration` 143-156
* cpp/frameProcessor/src/KafkaProducerPlugin.cpp: constructor 51-56, `configure` 81-106, `requestConfiguration` 113-125, `destroy_kafka` 158-169,
  `configure_kafka_servers` 188-236, `configure_kafka_topic` 243-266, `configure_partition` 285-288
* cpp/frameProcessor/src/LiveViewPlugin.cpp: constructor 31-43, `configure` 155-200, `requestConfiguration` 207-212, `set_socket_addr_config` 379-405,
  `set_dataset_name_config` 412-436, `set_tagged_filter_config` 438-453

An exception while a message is read is `none`; what was set before it is not modelled here. Warnings in the reply to a configuration and logging
are not modelled; neither are the applied settings of Blosc, which follow the commanded ones at the next acquisition (Model/Blosc). The names of
datasets are kept as a list, the code has a map. Unbinding an address that is bound succeeds.
-/
namespace Verif.PluginConfig
open Verif.Ipc

/-- `if (config.has_param(k)) … config.get_param<T>(k)`; the outer `none` is an exception. -/
def field {α : Type} (j : Json) (k : Str) (conv : Json → Option α) : Option (Option α) :=
  match hasParam (some j) k with
  | none => none
  | some false => some none
  | some true =>
    match (getParam (some j) k).bind conv with
    | none => none
    | some v => some (some v)

/-- Set a member if the message holds a value. -/
def upd {α σ : Type} (s : σ) (f : σ → α → σ) (x : Option (Option α)) : Option σ :=
  match x with
  | none => none
  | some none => some s
  | some (some v) => some (f s v)

/-- `GetInt64`. -/
def asInt64 : Json → Option Int
  | .num i => if -9223372036854775808 ≤ i ∧ i < 9223372036854775808 then some i else none
  | _ => none

/-- The loops over an array of `int`. -/
def asInts : Json → Option (List Int)
  | .arr l => l.mapM Json.asInt
  | _ => none

/-- Something reported: a value, or elements appended one by one. -/
inductive Item
  | val (p : List Str) (v : Json)
  | elems (p : List Str) (l : List Json)

/-- The calls of `set_param` for a plugin of this name; the parts of a path are joined with '/'. -/
def glue : List Str → Str
  | [] => []
  | [k] => k
  | k :: l => k ++ '/' :: glue l

def calls (name : Str) : Item → List (Str × Json)
  | .val p v => [(name ++ '/' :: glue p, v)]
  | .elems p l => l.map (fun v => (name ++ '/' :: glue p ++ "[]".toList, v))

/-- The reply to a request for the configuration of one plugin. -/
def reply (name : Str) (items : List Item) : Json × Res := Reply.sets (.obj []) (items.flatMap (calls name))

/-- The reply is sent back as a configuration, to a plugin of the same name. -/
def restore {σ : Type} (configure : σ → Json → Option σ) (fresh : σ) (name : Str) (r : Json) : Option σ :=
  match getParam (some r) name with
  | none => some fresh
  | some sub => configure fresh sub

/-! ## Offset adjustment -/

/-- OffsetAdjustmentPlugin.h. -/
structure Offset where
  adjustment : Int := 0                    -- int64_t
deriving DecidableEq, Repr

/-- OffsetAdjustmentPlugin.cpp:55-71. -/
def Offset.configure (s : Offset) (j : Json) : Option Offset :=
  upd s (fun _ v => { adjustment := v }) (field j "offset_adjustment".toList asInt64)

/-- OffsetAdjustmentPlugin.cpp:78-81. -/
def Offset.report (s : Offset) : List Item := [.val ["offset_adjustment".toList] (.num s.adjustment)]

/-! ## Dummy process plugin -/

/-- DummyUDPProcessPlugin.cpp:24-28. -/
structure Dummy where
  width : Int := 1400                      -- int
  height : Int := 1024
  copy : Bool := true
deriving DecidableEq, Repr

/-- DummyUDPProcessPlugin.cpp:100-121. -/
def Dummy.configure (s : Dummy) (j : Json) : Option Dummy :=
  (upd s (fun s v => { s with width := v }) (field j "width".toList Json.asInt)).bind fun s =>
  (upd s (fun s v => { s with height := v }) (field j "height".toList Json.asInt)).bind fun s =>
  upd s (fun s v => { s with copy := v }) (field j "copy_frame".toList Json.asBool)

/-- DummyUDPProcessPlugin.cpp:131-138. -/
def Dummy.report (s : Dummy) : List Item :=
  [.val ["width".toList] (.num s.width), .val ["height".toList] (.num s.height), .val ["copy_frame".toList] (.bool s.copy)]

/-! ## Blosc: the commanded settings -/

/-- BloscPlugin.cpp:55-64. -/
structure Blosc where
  compressor : Nat := 1                    -- BLOSC_LZ4
  threads : Nat := 1
  shuffle : Nat := 2                       -- BLOSC_BITSHUFFLE
  level : Int := 1
deriving DecidableEq, Repr

/-- BloscPlugin.cpp:253-261. -/
def capLevel (v : Int) : Int := if v < 1 then 1 else if v > 9 then 9 else v
/-- BloscPlugin.cpp:271-275. -/
def capShuffle (v : Nat) : Nat := if v > 2 then 0 else v
/-- BloscPlugin.cpp:284-288. -/
def capThreads (v : Nat) : Nat := if v > 256 then 8 else v          -- BLOSC_MAX_THREADS
/-- BloscPlugin.cpp:297-303. -/
def capCompressor (v : Nat) : Nat := if v > 5 then 1 else v         -- BLOSC_ZSTD, BLOSC_LZ4

/-- BloscPlugin.cpp:241-309. -/
def Blosc.configure (s : Blosc) (j : Json) : Option Blosc :=
  (upd s (fun s v => { s with level := capLevel v }) (field j "level".toList Json.asInt)).bind fun s =>
  (upd s (fun s v => { s with shuffle := capShuffle v }) (field j "shuffle".toList Json.asUint)).bind fun s =>
  (upd s (fun s v => { s with threads := capThreads v }) (field j "threads".toList Json.asUint)).bind fun s =>
  upd s (fun s v => { s with compressor := capCompressor v }) (field j "compressor".toList Json.asUint)

/-- BloscPlugin.cpp:315-325. -/
def Blosc.report (s : Blosc) : List Item :=
  [.val ["compressor".toList] (.num s.compressor), .val ["threads".toList] (.num s.threads), .val ["shuffle".toList] (.num s.shuffle),
   .val ["level".toList] (.num s.level)]

/-! ## Gap filling -/

/-- GapFillPlugin.h, four vectors. -/
structure GapFill where
  grid : List Int := []                    -- std::vector<int>
  chip : List Int := []
  gapsX : List Int := []
  gapsY : List Int := []
deriving DecidableEq, Repr

/-- GapFillPlugin.cpp:208-281. -/
def GapFill.configure (s : GapFill) (j : Json) : Option GapFill :=
  (upd s (fun s v => { s with grid := v }) (field j "grid_size".toList asInts)).bind fun s =>
  (upd s (fun s v => { s with chip := v }) (field j "chip_size".toList asInts)).bind fun s =>
  (upd s (fun s v => { s with gapsX := v }) (field j "x_gaps".toList asInts)).bind fun s =>
  upd s (fun s v => { s with gapsY := v }) (field j "y_gaps".toList asInts)

/-- GapFillPlugin.cpp:313-327. -/
def GapFill.report (s : GapFill) : List Item :=
  [.elems ["grid_size".toList] (s.grid.map .num), .elems ["chip_size".toList] (s.chip.map .num),
   .elems ["x_gaps".toList] (s.gapsX.map .num), .elems ["y_gaps".toList] (s.gapsY.map .num)]

/-! ## Kafka producer -/

/-- KafkaProducerPlugin.cpp:51-56. -/
structure Kafka where
  servers : Str := []
  topic : Str := "data".toList
  partition : Int := -1                    -- int32_t, RD_KAFKA_PARTITION_UA
  dataset : Str := "data".toList
  params : Bool := true
  producer : Bool := false                 -- kafka_producer_ is not null
  used : Option Str := none                -- the topic kafka_topic_ was made for
deriving DecidableEq, Repr

/-- `uint32_t` to `int32_t`. -/
def toInt32 (n : Nat) : Int := if n < 2147483648 then (n : Int) else (n : Int) - 4294967296

/-- `configure_kafka_topic`; `rd_kafka_topic_new` succeeds. -/
def Kafka.setTopic (s : Kafka) (t : Str) : Kafka :=
  if s.producer then { s with topic := t, used := some t } else { s with used := none }

/-- `destroy_kafka`, `configure_kafka_servers` and the topic again; `ok` says which servers the library accepts. -/
def Kafka.setServers (ok : Str → Bool) (s : Kafka) (v : Str) : Kafka :=
  if ok v then { s with servers := v, producer := true, used := some s.topic } else { s with producer := false, used := none }

/-- KafkaProducerPlugin.cpp:81-106. -/
def Kafka.configure (ok : Str → Bool) (s : Kafka) (j : Json) : Option Kafka :=
  (upd s (Kafka.setServers ok) (field j "servers".toList Json.asStr)).bind fun s =>
  (upd s Kafka.setTopic (field j "topic".toList Json.asStr)).bind fun s =>
  (upd s (fun s v => { s with partition := toInt32 v }) (field j "partition".toList Json.asUint)).bind fun s =>
  (upd s (fun s v => { s with dataset := v }) (field j "dataset".toList Json.asStr)).bind fun s =>
  upd s (fun s v => { s with params := v }) (field j "include_parameters".toList Json.asBool)

/-- KafkaProducerPlugin.cpp:113-125. -/
def Kafka.report (s : Kafka) : List Item :=
  [.val ["servers".toList] (.str s.servers), .val ["topic".toList] (.str s.topic), .val ["partition".toList] (.num s.partition),
   .val ["dataset".toList] (.str s.dataset), .val ["include_parameters".toList] (.bool s.params)]

/-! ## Live view -/

/-- Characters removed by `boost::trim`. -/
def blank (c : Char) : Bool := c == ' ' || c == '\t' || c == '\n' || c == '\r' || c == '\x0b' || c == '\x0c'

def trimLeft : Str → Str
  | [] => []
  | c :: s => if blank c then trimLeft s else c :: s

def trim (s : Str) : Str := (trimLeft (trimLeft s).reverse).reverse

/-- `boost::split` at commas. -/
def splitComma : Str → List Str
  | [] => [[]]
  | c :: s =>
    if c = ',' then [] :: splitComma s
    else match splitComma s with
      | [] => [[c]]
      | h :: t => (c :: h) :: t

/-- The names in a list; an empty text is an empty list. -/
def namesOf (s : Str) : List Str := if s = [] then [] else (splitComma s).map trim

/-- LiveViewPlugin.cpp:31-43. -/
structure Live where
  freq : Int := 1                          -- int32_t
  perSecond : Int := 0
  datasets : List Str := []                -- keys of datasets_
  tags : List Str := []
  addr : Str := []                         -- image_view_socket_addr_
  bound : Option Str := none               -- is_bound_, and the address the socket is bound to
deriving DecidableEq, Repr

/-- `set_socket_addr_config`; `ok` says which addresses can be bound. -/
def Live.setAddr (ok : Str → Bool) (s : Live) (v : Str) : Live :=
  if s.bound = some v then s
  else { s with addr := v, bound := if ok v then some v else none }

/-- The end of `configure`: the address given, or the default one if the socket is not bound. -/
def Live.address (ok : Str → Bool) (s : Live) : Option Str → Live
  | some v => s.setAddr ok v
  | none => if s.bound = none then s.setAddr ok "tcp://127.0.0.1:5020".toList else s

/-- LiveViewPlugin.cpp:155-200. -/
def Live.configure (ok : Str → Bool) (s : Live) (j : Json) : Option Live :=
  (upd s (fun s v => { s with freq := v }) (field j "frame_frequency".toList Json.asInt)).bind fun s =>
  (upd s (fun s v => { s with perSecond := v }) (field j "per_second".toList Json.asInt)).bind fun s =>
  (upd s (fun s v => { s with datasets := namesOf v }) (field j "dataset_name".toList Json.asStr)).bind fun s =>
  (upd s (fun s v => { s with tags := namesOf v }) (field j "filter_tagged".toList Json.asStr)).bind fun s =>
  (field j "live_view_socket_addr".toList Json.asStr).map (s.address ok)

/-- LiveViewPlugin.cpp:207-212. -/
def Live.report (s : Live) : List Item :=
  [.val ["frame_frequency".toList] (.num s.freq), .val ["live_view_socket_addr".toList] (.str s.addr),
   .val ["per_second".toList] (.num s.perSecond)]

/-! ## Parameter adjustment -/

/-- ParameterAdjustmentPlugin.h:51-53. -/
structure Adjust where
  adjustments : List (Str × Int) := []     -- std::map<std::string, int64_t>
  inputs : List (Str × Str) := []
deriving DecidableEq, Repr

/-- Setting an element of a map; the order of the elements is not modelled. -/
def setKey {α : Type} (l : List (Str × α)) (k : Str) (v : α) : List (Str × α) :=
  match l with
  | [] => [(k, v)]
  | (n, x) :: l => if n = k then (n, v) :: l else (n, x) :: setKey l k v

/-- One parameter of the message. -/
def Adjust.one (s : Adjust) (k : Str) (sub : Json) : Option Adjust :=
  match (getParam (some sub) "adjustment".toList).bind asInt64 with
  | none => none
  | some a =>
    match field sub "input".toList Json.asStr with
    | none => none
    | some i => some { adjustments := setKey s.adjustments k a, inputs := setKey s.inputs k (i.getD []) }

/-- ParameterAdjustmentPlugin.cpp:102-122, the loop over the parameters. -/
def Adjust.all (s : Adjust) (j : Json) : List Str → Option Adjust
  | [] => some s
  | k :: l =>
    match getParam (some j) k with
    | none => none
    | some sub => (s.one k sub).bind fun s => s.all j l

/-- ParameterAdjustmentPlugin.cpp:91-136. -/
def Adjust.configure (s : Adjust) (j : Json) : Option Adjust :=
  match hasParam (some j) "parameter".toList with
  | none => none
  | some false => some s
  | some true =>
    match getParam (some j) "parameter".toList with
    | some (.obj l) => if l = [] then some {} else s.all (.obj l) (l.map (·.1))
    | _ => none

/-- ParameterAdjustmentPlugin.cpp:143-156. -/
def Adjust.report (s : Adjust) : List Item :=
  s.adjustments.map (fun x => .val ["parameter".toList, x.1, "adjustment".toList] (.num x.2)) ++
    s.inputs.map (fun x => .val ["parameter".toList, x.1, "input".toList] (.str x.2))

end Verif.PluginConfig
