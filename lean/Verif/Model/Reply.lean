import Verif.Model.IpcMessage
/-!
Replies of the frame processor to requests for status, versions, commands, and to commands.

* cpp/frameProcessor/src/FrameProcessorController.cpp: `provideStatus` 290-324, `provideVersion` 334-350, `execute` 540-564,
  `requestCommands` 576-590, `resetStatistics` 599-617
* cpp/frameProcessor/src/FrameProcessorPlugin.cpp: `execute` 179-187, `add_performance_stats` 224-229, `version` 248-255
* cpp/frameProcessor/src/SharedMemoryController.cpp: `status` 284-291
* cpp/common/src/IpcMessage.cpp: `set_nack` 260-264

Plugins are in the order of the map, which is that of their names. What a plugin reports as its status (keys below its name, with values), its
errors, versions and commands are given. An exception ends the handler; what is sent then is the subject of C38.
-/
namespace Verif.Reply
open Verif.Ipc

structure Plug where
  name : Str
  status : List (Str × Json) := []         -- `status`: `set_param(get_name() + "/" + key, value)`
  last : Json := .num 0                    -- the three durations
  max : Json := .num 0
  mean : Json := .num 0
  errors : List Str := []
  warnings : List Str := []
  version : Json × Json × Json × Json × Json := (.num 0, .num 0, .num 0, .str [], .str [])
  commands : List Str := []

/-- Successive calls of `set_param`; the first exception ends them. -/
def sets : Json → List (Str × Json) → Json × Res
  | j, [] => (j, .ok)
  | j, c :: l =>
    match setParam j c.1 c.2 with
    | (j', .ok) => sets j' l
    | r => r

/-- The calls for the shared memory controller, if there is one. -/
def shmCalls : Option Bool → List (Str × Json)
  | none => []
  | some b => [("shared_memory/configured".toList, .bool b)]

/-- The calls for one plugin. -/
def plugCalls (p : Plug) : List (Str × Json) :=
  ("plugins/names[]".toList, .str p.name) ::
    p.status.map (fun c => (p.name ++ '/' :: c.1, c.2)) ++
    [(p.name ++ "/timing/last_process".toList, p.last), (p.name ++ "/timing/max_process".toList, p.max),
     (p.name ++ "/timing/mean_process".toList, p.mean)]

/-- All calls of `provideStatus`. -/
def statusCalls (shm : Option Bool) (ps : List Plug) : List (Str × Json) :=
  shmCalls shm ++ ps.flatMap plugCalls ++ (ps.flatMap (·.errors)).map (fun e => ("error[]".toList, .str e)) ++
    (ps.flatMap (·.warnings)).map (fun w => ("warning[]".toList, .str w))

/-- `provideStatus` on a new reply. -/
def provideStatus (shm : Option Bool) (ps : List Plug) : Json × Res := sets (.obj []) (statusCalls shm ps)

/-- Five calls below "version/name". -/
def versionCalls (name : Str) (v : Json × Json × Json × Json × Json) : List (Str × Json) :=
  [("version/".toList ++ name ++ "/major".toList, v.1), ("version/".toList ++ name ++ "/minor".toList, v.2.1),
   ("version/".toList ++ name ++ "/patch".toList, v.2.2.1), ("version/".toList ++ name ++ "/short".toList, v.2.2.2.1),
   ("version/".toList ++ name ++ "/full".toList, v.2.2.2.2)]

/-- `provideVersion` on a new reply. -/
def provideVersion (own : Json × Json × Json × Json × Json) (ps : List Plug) : Json × Res :=
  sets (.obj []) (versionCalls "odin-data".toList own ++ ps.flatMap (fun p => versionCalls p.name p.version))

/-- `requestCommands` on a new reply. -/
def requestCommands (ps : List Plug) : Json × Res :=
  sets (.obj []) (ps.flatMap (fun p => p.commands.map (fun c => (p.name ++ "/command[]".toList, .str c))))

/-! ## Commands -/

inductive Out
  | done
  | nack                                   -- `reply.set_nack(…)`
  | throws
deriving DecidableEq, Repr

structure Exec where
  log : List (Str × Str) := []             -- the commands passed to plugins
  present : Bool := false                  -- commandPresent
  nack : Bool := false                     -- the type of the reply
  thrown : Bool := false
deriving DecidableEq, Repr

/-- One turn of the loop of `execute`; `run` is what the plugin of a name does with a command. -/
def execOne (run : Str → Str → Out) (params : Option Json) (s : Exec) (name : Str) : Exec :=
  match hasParam params name with
  | none => { s with thrown := true }
  | some false => s
  | some true =>
    match getParam params name with
    | none => { s with thrown := true }
    | some sub =>
      match hasParam (some sub) "command".toList with
      | none => { s with thrown := true }
      | some false => s
      | some true =>
        match (getParam (some sub) "command".toList).bind Json.asStr with
        | none => { s with present := true, thrown := true }
        | some c =>
          { log := s.log ++ [(name, c)], present := true, nack := s.nack || (run name c == .nack),
            thrown := run name c == .throws }

/-- The loop; an exception ends it. -/
def execLoop (run : Str → Str → Out) (params : Option Json) : Exec → List Str → Exec
  | s, [] => s
  | s, n :: l => if (execOne run params s n).thrown then execOne run params s n else execLoop run params (execOne run params s n) l

/-- `execute`. -/
def execute (run : Str → Str → Out) (params : Option Json) (names : List Str) : Exec :=
  if (execLoop run params {} names).thrown then execLoop run params {} names
  else { execLoop run params {} names with nack := (execLoop run params {} names).nack || !(execLoop run params {} names).present }

/-! ## Resetting statistics -/

structure Reset where
  calls : List Str := []                   -- plugins whose statistics were reset
  nack : Bool := false
  error : Option Str := none               -- the plugin named in the error

/-- The loop of `resetStatistics`; the flag is what the plugin's `reset_statistics` returns. -/
def reset : Reset → List (Str × Bool) → Reset
  | r, [] => r
  | r, (n, ok) :: l =>
    reset (if ok then { r with calls := r.calls ++ [n] } else { calls := r.calls ++ [n], nack := true, error := some n }) l

end Verif.Reply
