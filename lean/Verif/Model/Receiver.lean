import Verif.Model.IpcMessage
import Verif.Model.MessageEq
/-
Model of the controller of the frame receiver.
Source: /repo/cpp/frameReceiver/src/FrameReceiverController.cpp: constructor 27-48, configure 70-122,
configure_ipc_channels 196-265, configure_frame_decoder 441-557, new_decoder_class 564-583, configure_buffer_manager
594-667, configure_rx_thread 676-755, stop_rx_thread 762-775, handle_ctrl_channel 783-877,
handle_frame_release_channel 969-1014, get_status 1095-1133, request_configuration 1172-1206, reset_statistics 1217-1231;
/repo/cpp/frameReceiver/include/FrameReceiverConfig.h: constructor 54-73, tokenize_port_list 75-94, rx name maps 96-143,
rx_port_list 145-154.

Sockets, libraries, plugins, shared memory and threads appear as an environment that decides which calls succeed.
Unbinding an endpoint always succeeds. The controller is driven by one thread.
-/
namespace Verif.Receiver
open Verif.Ipc

/-! ## Comparing messages -/

/-- `operator==` of two messages constructed from parameter values (Model/MessageEq): type and value are the same. -/
def msgEq (a b : Json) : Bool := MessageEq.blockEq (MessageEq.block (some a)) (MessageEq.block (some b))

/-! ## Port lists -/

/-- Decimal digits, most significant first. -/
def digitsF : Nat → Nat → List Nat
  | 0, _ => []
  | f + 1, n => if n < 10 then [n] else digitsF f (n / 10) ++ [n % 10]

def digitChar (d : Nat) : Char := Char.ofNat (48 + d)

def dec (n : Nat) : Str := (digitsF (n + 1) n).map digitChar

/-- `rx_port_list`: every port followed by a comma, the last comma erased. `none`: `erase` throws `std::out_of_range`. -/
def portText (ports : List Nat) : Option Str :=
  let s := ports.flatMap (fun p => dec p ++ [','])
  if s = [] then none else some s.dropLast

/-- `isspace` in the C locale. -/
def isSpace (c : Char) : Bool := c == ' ' || (9 ≤ c.toNat && c.toNat ≤ 13)

/-- The value of a digit in any base up to 16. -/
def digitVal (c : Char) : Option Nat :=
  let n := c.toNat
  if 48 ≤ n ∧ n ≤ 57 then some (n - 48)
  else if 97 ≤ n ∧ n ≤ 102 then some (n - 87)
  else if 65 ≤ n ∧ n ≤ 70 then some (n - 55)
  else none

/-- Digits of a base at the start of a text. -/
def digitsOf (base : Nat) : Str → Nat → Nat
  | [], acc => acc
  | c :: s, acc =>
    match digitVal c with
    | some d => if d < base then digitsOf base s (acc * base + d) else acc
    | none => acc

/-- The magnitude read by `strtol` with base 0: "0x" before a hexadecimal digit, "0", or decimal. -/
def magnitude : Str → Nat
  | '0' :: 'x' :: c :: s => if (digitVal c).isSome then digitsOf 16 (c :: s) 0 else 0
  | '0' :: 'X' :: c :: s => if (digitVal c).isSome then digitsOf 16 (c :: s) 0 else 0
  | '0' :: s => digitsOf 8 s 0
  | s => digitsOf 10 s 0

/-- `strtol(s, NULL, 0)` with 64-bit `long`, which saturates. -/
def strtol (s : Str) : Int :=
  match s.dropWhile isSpace with
  | '-' :: s => if magnitude s > 9223372036854775808 then -9223372036854775808 else -(magnitude s : Int)
  | '+' :: s => if magnitude s > 9223372036854775807 then 9223372036854775807 else magnitude s
  | s => if magnitude s > 9223372036854775807 then 9223372036854775807 else magnitude s

/-- `static_cast<uint16_t>`. -/
def toPort (i : Int) : Nat := (i % 65536).toNat

/-- Split at every comma. -/
def splitComma : Str → List Str
  | [] => [[]]
  | c :: s =>
    if c = ',' then [] :: splitComma s
    else match splitComma s with
      | [] => [[c]]
      | h :: t => (c :: h) :: t

/-- `tokenize_port_list`. The code reads the text of each port after its temporary string has been destroyed; the model
assumes the memory still holds it. -/
def tokenize (s : Str) : List Nat := ((splitComma s).map (fun t => toPort (strtol t))).filter (· != 0)

/-! ## Configuration -/

inductive RxType
  | illegal | udp | zmq | tcp
deriving DecidableEq, Repr

/-- `map_rx_name_to_type`. -/
def rxTypeOf (s : Str) : RxType :=
  if s = "udp".toList ∨ s = "UDP".toList then .udp
  else if s = "zmq".toList ∨ s = "ZMQ".toList then .zmq
  else if s = "tcp".toList ∨ s = "TCP".toList then .tcp
  else .illegal

/-- `map_rx_type_to_name`. -/
def rxTypeName : RxType → Str
  | .udp => "udp".toList
  | .zmq => "zmq".toList
  | .tcp => "tcp".toList
  | .illegal => "unknown".toList

/-- `FrameReceiverConfig`; `frameCount` is not initialised by the constructor. -/
structure Config where
  ctrl : Str := []
  rx : Str := []
  ready : Str := []
  release : Str := []
  path : Str
  type : Str := "unknown".toList
  decoder : Json := .obj []
  name : Str := "OdinDataBuffer".toList
  mem : Nat := 1048576
  rxType : RxType := .udp
  address : Str := "0.0.0.0".toList
  recvSize : Int := 30000000
  ports : List Nat := tokenize "8989,8990".toList
  frameCount : Option Nat := none

/-- Disturbances of the running receiver. -/
inductive Eff
  | load           -- a decoder is loaded, after the old one has been destroyed
  | create         -- the shared memory is created anew
  | start          -- a receiver thread is created and started
deriving DecidableEq, Repr

structure St where
  cfg : Config
  ctrlSet : Bool := false              -- the static variables of `configure_ipc_channels`
  rxSet : Bool := false
  readySet : Bool := false
  releaseSet : Bool := false
  needDecoder : Bool := false
  needBuffer : Bool := false
  needRx : Bool := false
  ipcOk : Bool := false
  decoderOk : Bool := false
  bufferOk : Bool := false
  rxOk : Bool := false
  complete : Bool := false
  decoder : Bool := false              -- there is a frame decoder
  manager : Bool := false              -- there is a buffer manager
  thread : Bool := false               -- there is a receiver thread
  total : Option Nat := none           -- `total_buffers_`, not initialised
  received : Nat := 0
  released : Nat := 0
  stopping : Bool := false
  effects : List Eff := []

/-- How a function ends. -/
inductive Out
  | ok
  | receiver         -- `FrameReceiverException`
  | message          -- `IpcMessageException`
  | other            -- any other exception
  | ub
deriving DecidableEq, Repr

/-- What happens outside the controller during one `configure`. -/
structure Env where
  bind : Str → Bool                    -- binding an endpoint succeeds
  load : Str → Str → Bool              -- a decoder of a type can be loaded from a path
  init : Json → Bool                   -- its initialisation does not throw
  manager : Str → Nat → Option Nat     -- number of buffers; `none`: `SharedBufferManagerException`
  start : Bool                         -- the receiver thread starts

/-- Run the second function if the first one returns. -/
def andThen (r : St × Out) (f : St → St × Out) : St × Out :=
  match r with
  | (s, .ok) => f s
  | r => r

/-- A parameter with a default, read with `read`; `none`: `IpcMessageException`. -/
def paramOr {α : Type} (ps : Json) (name : String) (read : Json → Option α) (d : α) : Option α :=
  match ps with
  | .obj l => match findM l name.toList with
    | none => some d
    | some j => read j
  | _ => none

/-- `has_param` and `get_param` of a name without slash: outer `none`: `IpcMessageException`. -/
def param {α : Type} (ps : Json) (name : String) (read : Json → Option α) : Option (Option α) :=
  match ps with
  | .obj l => match findM l name.toList with
    | none => some none
    | some j => (read j).map some
  | _ => none

/-- Lines 208-217. -/
def setCtrl (e : Env) (ps : Json) (s : St) : St × Out :=
  match param ps "ctrl_endpoint" Json.asStr with
  | none => (s, .message)
  | some none => (s, .ok)
  | some (some ep) =>
    if ep = s.cfg.ctrl then (s, .ok)
    else if e.bind ep then ({ s with cfg := { s.cfg with ctrl := ep }, ctrlSet := true }, .ok)
    else (s, .receiver)

/-- Lines 220-232. -/
def setRx (e : Env) (ps : Json) (s : St) : St × Out :=
  match param ps "rx_endpoint" Json.asStr with
  | none => (s, .message)
  | some none => (s, .ok)
  | some (some ep) =>
    if ep = s.cfg.rx then (s, .ok)
    else if e.bind ep then ({ s with cfg := { s.cfg with rx := ep }, rxSet := true, needRx := true }, .ok)
    else (s, .receiver)

/-- Lines 235-245. -/
def setReady (e : Env) (ps : Json) (s : St) : St × Out :=
  match param ps "frame_ready_endpoint" Json.asStr with
  | none => (s, .message)
  | some none => (s, .ok)
  | some (some ep) =>
    if ep = s.cfg.ready then (s, .ok)
    else if e.bind ep then ({ s with cfg := { s.cfg with ready := ep }, readySet := true }, .ok)
    else (s, .receiver)

/-- Lines 248-258. -/
def setRelease (e : Env) (ps : Json) (s : St) : St × Out :=
  match param ps "frame_release_endpoint" Json.asStr with
  | none => (s, .message)
  | some none => (s, .ok)
  | some (some ep) =>
    if ep = s.cfg.release then (s, .ok)
    else if e.bind ep then ({ s with cfg := { s.cfg with release := ep }, releaseSet := true }, .ok)
    else (s, .receiver)

/-- Lines 261-264: the flag of the ready channel is used twice. -/
def flagIpc (s : St) : St × Out :=
  ({ s with ipcOk := s.ctrlSet && s.rxSet && s.readySet && s.readySet }, .ok)

/-- `configure_ipc_channels`. -/
def configureIpc (e : Env) (ps : Json) (s : St) : St × Out :=
  andThen (setCtrl e ps { s with ipcOk := false }) fun s =>
  andThen (setRx e ps s) fun s =>
  andThen (setReady e ps s) fun s =>
  andThen (setRelease e ps s) flagIpc

/-- `stop_rx_thread`. -/
def stopThread (s : St) : St := if s.thread then { s with thread := false, rxOk := false } else s

/-- Lines 446-452 and 455-458. -/
def setPath (ps : Json) (s : St) : St × Out :=
  match paramOr ps "decoder_path" Json.asStr s.cfg.path with
  | none => (s, .message)
  | some p =>
    if p = [] then (s, .ub)            -- `*rbegin()` of an empty string
    else if p = s.cfg.path then (s, .ok)
    else ({ s with cfg := { s.cfg with path := p }, needDecoder := true }, .ok)

/-- Lines 461-466. -/
def setType (ps : Json) (s : St) : St × Out :=
  match paramOr ps "decoder_type" Json.asStr s.cfg.type with
  | none => (s, .message)
  | some t =>
    if t = s.cfg.type then (s, .ok)
    else ({ s with cfg := { s.cfg with type := t }, needDecoder := true }, .ok)

/-- `new_decoder_class`; `none`: `IpcMessageException`. -/
def newClass (ps : Json) (s : St) : Option Bool :=
  match param ps "decoder_path" Json.asStr, param ps "decoder_type" Json.asStr with
  | some p, some t =>
    some ((match p with | some p => decide (s.cfg.path ≠ p) | none => false) ||
      (match t with | some t => decide (s.cfg.type ≠ t) | none => false))
  | _, _ => none

/-- `update` of the decoder configuration by a message with these params. -/
def mergeConfig (new old : Json) : Json × Out :=
  match new with
  | .obj _ => match update new old with
    | (j, .ok) => (j, .ok)
    | (j, .assertion) => (j, .message)
    | (j, .range) => (j, .other)
    | (j, .ub) => (j, .ub)
  | _ => (old, .message)

/-- Lines 471-495. -/
def setDecoderConfig (ps : Json) (s : St) : St × Out :=
  match param ps "decoder_config" some with
  | none => (s, .message)
  | some none => (s, .ok)
  | some (some new) =>
    if msgEq new s.cfg.decoder then (s, .ok)
    else match newClass ps s with
      | none => (s, .message)
      | some true => ({ s with cfg := { s.cfg with decoder := new }, needDecoder := true }, .ok)
      | some false =>
        match mergeConfig new s.cfg.decoder with
        | (j, .ok) => ({ s with cfg := { s.cfg with decoder := j }, needDecoder := true }, .ok)
        | (j, o) => ({ s with cfg := { s.cfg with decoder := j } }, o)

/-- The path with a slash at its end. -/
def slashed (p : Str) : Str := if p.getLast? = some '/' then p else p ++ ['/']

/-- Lines 498-556. -/
def loadDecoder (e : Env) (s : St) : St × Out :=
  if s.needDecoder then
    if s.cfg.type = "unknown".toList then ({ s with decoderOk := false }, .ok)
    else if e.load (slashed s.cfg.path) s.cfg.type then
      if e.init s.cfg.decoder then
        ({ stopThread s with decoder := true, decoderOk := true, needBuffer := true, needRx := true,
                             effects := s.effects ++ [.load] }, .ok)
      else ({ stopThread s with decoder := true, decoderOk := false, effects := s.effects ++ [.load] }, .receiver)
    else ({ stopThread s with decoder := false, decoderOk := false, effects := s.effects ++ [.load] }, .receiver)
  else (s, .ok)

/-- `configure_frame_decoder`. -/
def configureDecoder (e : Env) (ps : Json) (s : St) : St × Out :=
  andThen (setPath ps s) fun s =>
  andThen (setType ps s) fun s =>
  andThen (setDecoderConfig ps s) (loadDecoder e)

/-- Lines 597-603. -/
def setName (ps : Json) (s : St) : St × Out :=
  match paramOr ps "shared_buffer_name" Json.asStr s.cfg.name with
  | none => (s, .message)
  | some n =>
    if n = s.cfg.name then (s, .ok)
    else ({ s with cfg := { s.cfg with name := n }, needBuffer := true }, .ok)

/-- Lines 605-611. -/
def setMem (ps : Json) (s : St) : St × Out :=
  match paramOr ps "max_buffer_mem" Json.asUint64 s.cfg.mem with
  | none => (s, .message)
  | some m =>
    if m = s.cfg.mem then (s, .ok)
    else ({ s with cfg := { s.cfg with mem := m }, needBuffer := true }, .ok)

/-- Lines 613-666. -/
def createManager (e : Env) (s : St) : St × Out :=
  if s.needBuffer then
    if s.decoder then
      match e.manager s.cfg.name s.cfg.mem with
      | some n => ({ stopThread s with manager := true, bufferOk := true, needRx := true, total := some n,
                                       effects := s.effects ++ [.create] }, .ok)
      | none => ({ stopThread s with manager := false, bufferOk := false, effects := s.effects ++ [.create] }, .other)
    else ({ s with bufferOk := false }, .ok)
  else (s, .ok)

/-- `configure_buffer_manager`. -/
def configureBuffer (e : Env) (ps : Json) (s : St) : St × Out :=
  andThen (setName ps s) fun s =>
  andThen (setMem ps s) (createManager e)

/-- Lines 680-688. -/
def setRxType (ps : Json) (s : St) : St × Out :=
  match paramOr ps "rx_type" Json.asStr (rxTypeName s.cfg.rxType) with
  | none => (s, .message)
  | some t =>
    if rxTypeOf t = s.cfg.rxType then (s, .ok)
    else ({ s with cfg := { s.cfg with rxType := rxTypeOf t }, needRx := true }, .ok)

/-- Lines 690-696. -/
def setAddress (ps : Json) (s : St) : St × Out :=
  match paramOr ps "rx_address" Json.asStr s.cfg.address with
  | none => (s, .message)
  | some a =>
    if a = s.cfg.address then (s, .ok)
    else ({ s with cfg := { s.cfg with address := a }, needRx := true }, .ok)

/-- Lines 698-704. -/
def setRecvSize (ps : Json) (s : St) : St × Out :=
  match paramOr ps "rx_recv_buffer_size" Json.asInt s.cfg.recvSize with
  | none => (s, .message)
  | some n =>
    if n = s.cfg.recvSize then (s, .ok)
    else ({ s with cfg := { s.cfg with recvSize := n }, needRx := true }, .ok)

/-- Lines 706-713. -/
def setPorts (ps : Json) (s : St) : St × Out :=
  match portText s.cfg.ports with
  | none => (s, .other)
  | some cur =>
    match paramOr ps "rx_ports" Json.asStr cur with
    | none => (s, .message)
    | some t =>
      if t = cur then (s, .ok)
      else ({ s with cfg := { s.cfg with ports := tokenize t }, needRx := true }, .ok)

/-- Lines 715-754. -/
def startThread (e : Env) (s : St) : St × Out :=
  if s.needRx then
    if s.decoder && s.manager then
      if s.cfg.rxType = .illegal then ({ stopThread s with rxOk := false }, .receiver)
      else ({ s with thread := true, rxOk := e.start, effects := s.effects ++ [.start] }, .ok)
    else ({ s with rxOk := false }, .ok)
  else (s, .ok)

/-- `configure_rx_thread`. -/
def configureRx (e : Env) (ps : Json) (s : St) : St × Out :=
  andThen (setRxType ps s) fun s =>
  andThen (setAddress ps s) fun s =>
  andThen (setRecvSize ps s) fun s =>
  andThen (setPorts ps s) (startThread e)

/-- Lines 79-83: the debug level is read. -/
def setDebug (ps : Json) (s : St) : St × Out :=
  match param ps "debug_level" Json.asUint with
  | none => (s, .message)
  | some _ => (s, .ok)

/-- Lines 86-90. -/
def setFrames (ps : Json) (s : St) : St × Out :=
  match param ps "frames" Json.asUint with
  | none => (s, .message)
  | some none => (s, .ok)
  | some (some n) => if n = 0 then (s, .ok) else ({ s with cfg := { s.cfg with frameCount := some n } }, .ok)

/-- Lines 105-106. -/
def finish (s : St) : St × Out :=
  ({ s with complete := s.ipcOk && s.decoderOk && s.bufferOk && s.rxOk }, .ok)

/-- The body of `configure`, lines 79-106. -/
def configure (e : Env) (ps : Json) (s : St) : St × Out :=
  andThen (setDebug ps s) fun s =>
  andThen (setFrames ps s) fun s =>
  andThen (configureIpc e ps s) fun s =>
  andThen (configureDecoder e ps s) fun s =>
  andThen (configureBuffer e ps s) fun s =>
  andThen (configureRx e ps s) finish

/-! ## Requests -/

/-- A reply: to whom, its type, value and id. -/
structure Reply where
  client : Str
  type : MsgType
  val : MsgVal
  id : Nat
deriving DecidableEq

/-- A reply to a client, and how the handler ends. -/
structure Handled where
  st : St
  replies : List Reply
  out : Out

/-- What plugins and the status message of the receiver thread do in requests. -/
structure Env2 where
  status : Out         -- reading the stored status of the receiver thread
  config : Out         -- `request_configuration` of the decoder
  version : Out        -- `version` of the decoder
  reset : Out          -- `reset_statistics` of the decoder

/-- `get_status`: `total_buffers_` is read. -/
def getStatus (e : Env2) (s : St) : St × Out :=
  match e.status with
  | .ok => match s.total with
    | some _ => (s, .ok)
    | none => (s, .ub)
  | o => (s, o)

/-- `request_configuration`: the port list and the frame count are read. -/
def getConfig (e : Env2) (s : St) : St × Out :=
  match (if s.decoder then e.config else .ok) with
  | .ok => match portText s.cfg.ports with
    | none => (s, .other)
    | some _ => match s.cfg.frameCount with
      | some _ => (s, .ok)
      | none => (s, .ub)
  | o => (s, o)

/-- `get_version`. -/
def getVersion (e : Env2) (s : St) : St × Out := (s, if s.decoder then e.version else .ok)

/-- `reset_statistics`. -/
def resetStats (e : Env2) (s : St) : St × Out :=
  match (if s.decoder then e.reset else .ok) with
  | .ok => ({ s with received := 0, released := 0 }, .ok)
  | o => (s, o)

/-- The commands of the control channel; second component `none`: illegal value. -/
def command (e : Env) (e2 : Env2) (ps : Json) (v : MsgVal) (s : St) : Option (St × Out) :=
  match v with
  | .configure => some (configure e ps s)
  | .requestConfiguration => some (getConfig e2 s)
  | .status => some (getStatus e2 s)
  | .requestVersion => some (getVersion e2 s)
  | .resetStatistics => some (resetStats e2 s)
  | .shutdown => some ({ s with stopping := true }, .ok)
  | _ => none

/-- `handle_ctrl_channel`, after decoding: a message exception and, in `configure`, a receiver exception give a negative
reply; any other exception leaves the function before the reply is sent. -/
def handled (client : Str) (v : MsgVal) (id : Nat) (r : St × Out) : Handled :=
  match r with
  | (s, .ok) => ⟨s, [⟨client, .ack, v, id⟩], .ok⟩
  | (s, .receiver) =>
    if v = .configure then ⟨s, [⟨client, .nack, v, id⟩], .ok⟩ else ⟨s, [], .receiver⟩
  | (s, .message) => ⟨s, [⟨client, .nack, v, id⟩], .ok⟩
  | (s, o) => ⟨s, [], o⟩

/-- `handle_ctrl_channel` with a parsed document (`none`: not JSON). The params of a message without params block are
treated as empty for reading. -/
def handleCtrl (T : Times) (e : Env) (e2 : Env2) (client : Str) (doc : Option Json) (s : St) : Handled :=
  match doc.bind (decode T false) with
  | none => ⟨s, [⟨client, .nack, .illegal, 0⟩], .ok⟩
  | some m =>
    match m.id with
    | none => ⟨s, [], .ub⟩             -- an uninitialised id is copied into the reply
    | some id =>
      if m.type = .cmd then
        match command e e2 (m.params.getD (.obj [])) m.val s with
        | some r => handled client m.val id r
        | none => ⟨s, [⟨client, .nack, m.val, id⟩], .ok⟩
      else ⟨s, [⟨client, .nack, .illegal, id⟩], .ok⟩

/-- `handle_frame_release_channel`, for a release notification of a frame: the frame count is read. -/
def release (s : St) : St × Out :=
  match s.cfg.frameCount with
  | none => ({ s with released := s.released + 1 }, .ub)
  | some n =>
    if n ≠ 0 ∧ s.released + 1 ≥ n then ({ s with released := s.released + 1, stopping := true }, .ok)
    else ({ s with released := s.released + 1 }, .ok)

end Verif.Receiver
