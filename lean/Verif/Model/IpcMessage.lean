/-
Model of IPC messages.
Source: /repo/cpp/common/include/IpcMessage.h: get_param 141-168, get_param with default 180-196, set_param 215-279,
internal_set_param 339-367, get_attribute 378-404; /repo/cpp/common/src/IpcMessage.cpp: constructors 24-39, 51-142,
update 150-156, get_param_names 192-202, has_param 212-250, encode 380-399, operator== 462-500,
valid_msg_type 537-592, valid_msg_val 599-666, has_params 712-721, get_value 726-770.

JSON documents are trees; for the text of documents see Model/JsonText.lean. Names and strings are lists
of characters (a NUL character, at which `c_str()` ends, is not treated specially). Objects are lists of members in
document order; `FindMember` finds the first one of a name. Timestamps are opaque. A failed rapidjson assertion throws
an `IpcMessageException` (IpcMessage.h:61).
-/
namespace Verif.Ipc

abbrev Str := List Char

inductive Json
  | null
  | bool (b : Bool)
  | num (i : Int)
  | dbl (d : Nat)                       -- a number that is not an integer, opaque
  | str (s : Str)
  | arr (l : List Json)
  | obj (l : List (Str × Json))

/-- `FindMember` on the members of an object. -/
def findM (l : List (Str × Json)) (k : Str) : Option Json :=
  match l with
  | [] => none
  | (n, v) :: l => if n = k then some v else findM l k

/-- Change the first member of a name, if there is one. -/
def setM (l : List (Str × Json)) (k : Str) (v : Json) : List (Str × Json) :=
  match l with
  | [] => []
  | (n, x) :: l => if n = k then (n, v) :: l else (n, x) :: setM l k v

/-- Split at every '/'. -/
def splitAll : Str → List Str
  | [] => [[]]
  | c :: s =>
    if c = '/' then [] :: splitAll s
    else match splitAll s with
      | [] => [[c]]
      | h :: t => (c :: h) :: t

/-- `get_param` along the parts of a name; `none`: an `IpcMessageException`. -/
def get : List Str → Json → Option Json
  | [], j => some j
  | k :: ks, .obj l => (findM l k).bind (get ks)
  | _ :: _, _ => none

/-- `get_param<const rapidjson::Value&>(name)` of a message with these params. -/
def getParam (params : Option Json) (name : Str) : Option Json := params.bind (get (splitAll name))

/-- `get_param(name, default)`: the name is not split. `none`: an `IpcMessageException`. -/
def getParamOr (params : Option Json) (name : Str) : Option (Option Json) :=
  match params with
  | none => some none
  | some (.obj l) => some (findM l name)
  | some _ => none

/-- `has_param`; `none`: an `IpcMessageException` (the value on the way is not an object). -/
def has : List Str → Json → Option Bool
  | [], _ => some true
  | k :: ks, .obj l =>
    match findM l k with
    | none => some false
    | some v => match ks with
      | [] => some true
      | _ :: _ => has ks v
  | _ :: _, _ => none

def hasParam (params : Option Json) (name : Str) : Option Bool :=
  match params with
  | none => some false
  | some j => has (splitAll name) j

/-- `std::getline` at '/': as `splitAll`, without a last part that is empty. -/
def getlines (s : Str) : List Str :=
  match splitAll s with
  | [] => []
  | l => if l.getLast? = some [] then l.dropLast else l

inductive Res
  | ok
  | assertion          -- `IpcMessageException`
  | range              -- `std::out_of_range`
  | ub
deriving DecidableEq, Repr

/-- The test for "[]": `none`: `compare` throws, the position `length() - 2` is behind the end. -/
def isArray (s : Str) : Option Bool :=
  if s.length < 2 then none else some (decide (s.drop (s.length - 2) = ['[', ']']))

/-- `substr(0, size() - 2)`. -/
def chop (s : Str) : Str := if s.length < 2 then s else s.take (s.length - 2)

/-- IpcMessage.h:269-278: store the value, or append it to an array. -/
def final (found : Bool) (v : Json) (j : Json) : Json :=
  if found then match j with
    | .arr l => .arr (l ++ [v])
    | _ => .arr [v]
  else v

/-- IpcMessage.h:248-254: is the part `k` checked for "[]" (it equals the last one), and what is then known. -/
def checked (last k : Str) (found : Bool) : Option Bool :=
  if k = last then (isArray k).map (fun b => found || b) else some found

/-- IpcMessage.h:247-278: the loop over the remaining parts. -/
def walk (v : Json) (last : Str) : Bool → List Str → Json → Json × Res
  | found, [], j => (final found v j, .ok)
  | found, k :: ks, j =>
    match checked last k found with
    | none => (j, .range)
    | some found =>
      let idx := if found then chop k else k
      match j with
      | .obj l =>
        match findM l idx with
        | some x => ((.obj (setM l idx (walk v last found ks x).1)), (walk v last found ks x).2)
        | none => ((.obj (l ++ [(idx, (walk v last found ks (.obj [])).1)])), (walk v last found ks (.obj [])).2)
      | j => (j, .assertion)

/-- `set_param` with the parts of the name, IpcMessage.h:226-279. -/
def setParts (params : Json) (names : List Str) (v : Json) : Json × Res :=
  match names with
  | [] => (params, .ub)
  | top :: names =>
    match isArray top with
    | none => (params, .range)
    | some found =>
      let idx := if found then chop top else top
      match params with
      | .obj l =>
        let last := names.getLast?.getD []
        match findM l idx with
        | some x => (.obj (setM l idx (walk v last found names x).1), (walk v last found names x).2)
        | none => (.obj (l ++ [(idx, (walk v last found names (.obj [])).1)]), (walk v last found names (.obj [])).2)
      | j => (j, .assertion)

/-- `set_param(name, value)`. -/
def setParam (params : Json) (name : Str) (v : Json) : Json × Res := setParts params (getlines name) v

/-- `set_param` of a message: `internal_set_param` creates a missing params block, unless the name is refused first. -/
def setDoc (doc : List (Str × Json)) (name : Str) (v : Json) : List (Str × Json) × Res :=
  match findM doc "params".toList with
  | some p => (setM doc "params".toList (setParam p name v).1, (setParam p name v).2)
  | none =>
    match (setParam (.obj []) name v).1 with
    | .obj [] => (doc, (setParam (.obj []) name v).2)
    | p => (doc ++ [("params".toList, p)], (setParam (.obj []) name v).2)

/-- `get_param_names`. -/
def names : Json → List Str
  | .obj l => l.map (·.1)
  | _ => []

/-- `update(other)` for some of the names of `other`: set every parameter; stops at an exception. -/
def updateNames (other params : Json) : List Str → Json × Res
  | [] => (params, .ok)
  | k :: l =>
    match getParam (some other) k with
    | none => (params, .assertion)
    | some v =>
      match setParam params k v with
      | (p, .ok) => updateNames other p l
      | r => r

/-- `update(other)`. -/
def update (other params : Json) : Json × Res := updateNames other params (names other)

/-! Values. Numbers are read with the range check of rapidjson. -/

def Json.asInt : Json → Option Int
  | .num i => if -2147483648 ≤ i ∧ i < 2147483648 then some i else none
  | _ => none

def Json.asUint : Json → Option Nat
  | .num i => if 0 ≤ i ∧ i < 4294967296 then some i.toNat else none
  | _ => none

def Json.asUint64 : Json → Option Nat
  | .num i => if 0 ≤ i ∧ i < 18446744073709551616 then some i.toNat else none
  | _ => none

def Json.asStr : Json → Option Str
  | .str s => some s
  | _ => none

def Json.asBool : Json → Option Bool
  | .bool b => some b
  | _ => none

/-! ## Types and values of messages -/

inductive MsgType
  | illegal | cmd | ack | nack | notify
deriving DecidableEq, Repr

inductive MsgVal
  | illegal | reset | status | configure | requestConfiguration | execute | requestCommands | requestVersion
  | bufferConfigRequest | bufferPrechargeRequest | resetStatistics | shutdown | identity | frameReady | frameRelease
  | bufferConfig | bufferPrecharge | notifyStatus
deriving DecidableEq, Repr

/-- `msg_type_map_init`. -/
def typeMap : List (String × MsgType) :=
  [("cmd", .cmd), ("ack", .ack), ("nack", .nack), ("notify", .notify)]

/-- `msg_val_map_init`. -/
def valMap : List (String × MsgVal) :=
  [("reset", .reset), ("status", .status), ("configure", .configure), ("request_configuration", .requestConfiguration),
   ("execute", .execute), ("request_commands", .requestCommands), ("request_version", .requestVersion),
   ("request_buffer_config", .bufferConfigRequest), ("request_buffer_precharge", .bufferPrechargeRequest),
   ("reset_statistics", .resetStatistics), ("shutdown", .shutdown), ("identity", .identity),
   ("frame_ready", .frameReady), ("frame_release", .frameRelease), ("buffer_config", .bufferConfig),
   ("buffer_precharge", .bufferPrecharge), ("notify_status", .notifyStatus)]

/-- `boost::bimap::insert`: an entry with a known name or a known value is not inserted. -/
def bimapInsert {α : Type} [DecidableEq α] (m : List (Str × α)) (e : String × α) : List (Str × α) :=
  if m.any (fun x => decide (x.1 = e.1.toList) || decide (x.2 = e.2)) then m else m ++ [(e.1.toList, e.2)]

def bimap {α : Type} [DecidableEq α] (l : List (String × α)) : List (Str × α) := l.foldl bimapInsert []

/-- `left.at`. -/
def left {α : Type} (m : List (Str × α)) (k : Str) : Option α :=
  match m with
  | [] => none
  | (n, v) :: m => if n = k then some v else left m k

/-- `right.at`. -/
def right {α : Type} [DecidableEq α] (m : List (Str × α)) (v : α) : Option Str :=
  match m with
  | [] => none
  | (n, x) :: m => if x = v then some n else right m v

def typeOf (s : Str) : MsgType := (left (bimap typeMap) s).getD .illegal
def typeName (t : MsgType) : Str := (right (bimap typeMap) t).getD "illegal".toList
def valOf (s : Str) : MsgVal := (left (bimap valMap) s).getD .illegal
def valName (v : MsgVal) : Str := (right (bimap valMap) v).getD "illegal".toList

/-! ## Whole messages -/

structure Msg where
  type : MsgType := .illegal
  val : MsgVal := .illegal
  id : Option Nat := some 0             -- `none`: not initialised
  time : Option Nat := none             -- `none`: not_a_date_time
  doc : List (Str × Json) := [("params".toList, .obj [])]

def Msg.params (m : Msg) : Option Json := findM m.doc "params".toList

/-- `set_attribute`. -/
def setAttr (l : List (Str × Json)) (k : Str) (v : Json) : List (Str × Json) :=
  match findM l k with
  | some _ => setM l k v
  | none => l ++ [(k, v)]

/-- Time stamps and their texts: `to_iso_extended_string` and `parse_delimited_time` of boost, not modelled further.
`none`: not_a_date_time, also the result when the text cannot be parsed. -/
structure Times where
  text : Option Nat → Str
  parse : Str → Option Nat

/-- The document of `encode`; an uninitialised id is undefined (`none`). -/
def encode (T : Times) (m : Msg) : Option (List (Str × Json)) :=
  m.id.map (fun (id : Nat) =>
    setAttr (setAttr (setAttr (setAttr m.doc "msg_type".toList (.str (typeName m.type)))
      "msg_val".toList (.str (valName m.val))) "id".toList (.num (id : Int))) "timestamp".toList (.str (T.text m.time)))

/-- A string attribute with default "none"; outer `none`: an exception. -/
def strAttr (l : List (Str × Json)) (k : Str) : Option Str :=
  match findM l k with
  | none => some "none".toList
  | some (.str s) => some s
  | some _ => none

/-- The id; `none`: not initialised, an exception if strict. -/
def idAttr (l : List (Str × Json)) : Option Nat :=
  match findM l "id".toList with
  | none => some 0
  | some j => j.asUint

def hasParams (l : List (Str × Json)) : Bool :=
  match findM l "params".toList with
  | some (.obj _) => true
  | _ => false

/-- The constructor from a parsed document; `none`: an `IpcMessageException`. -/
def decode (T : Times) (strict : Bool) : Json → Option Msg
  | .obj l =>
    match strAttr l "msg_type".toList, strAttr l "msg_val".toList, strAttr l "timestamp".toList with
    | some t, some v, some time =>
      if strict ∧ (typeOf t = .illegal ∨ valOf v = .illegal ∨ T.parse time = none ∨ idAttr l = none ∨ hasParams l = false)
      then none
      else some { type := typeOf t, val := valOf v, id := idAttr l, time := T.parse time, doc := l }
    | _, _, _ => none
  | _ => none

end Verif.Ipc
