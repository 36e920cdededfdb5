import Verif.Model.IpcMessage
/-
Which plugin of the frame processor gets which part of a configuration.
Source: /repo/cpp/frameProcessor/src/FrameProcessorController.cpp: `configure` 371-498, the settings of the controller 376-482 and the loop over the
plugins 485-494; the names of the settings 20-43; /repo/cpp/common/src/IpcMessage.cpp `has_param`, `get_param` (Verif.Ipc).

What the settings do is left to the environment, apart from the types their values must have: they may load plugins, and they may be refused.
The parts of `plugin`, `fr_setup`, `store` and `execute` are objects that are only looked into. `plugins_` is the list of its names, in their order.
-/
namespace Verif.Dispatch
open Verif.Ipc

/-- How `configure` ends. -/
inductive Out
  | ok | refused
deriving DecidableEq, Repr

/-- An object: its members can be looked at. -/
def isObj : Json → Bool
  | .obj _ => true
  | _ => false

/-- The settings of the controller whose values are read, and the types that are accepted, lines 376-482. -/
def own : List (Str × (Json → Bool)) :=
  [("hdf/master".toList, fun v => v.asStr.isSome), ("frames".toList, fun v => v.asUint.isSome), ("debug_level".toList, fun v => v.asUint.isSome),
   ("ctrl_endpoint".toList, fun v => v.asStr.isSome), ("meta_endpoint".toList, fun v => v.asStr.isSome), ("plugin".toList, isObj),
   ("fr_setup".toList, isObj), ("store".toList, isObj), ("execute".toList, isObj)]

/-- One setting: `has_param`, then `get_param`. -/
def fits (j : Json) (x : Str × (Json → Bool)) : Bool :=
  match hasParam (some j) x.1 with
  | none => false
  | some false => true
  | some true => match getParam (some j) x.1 with
    | none => false
    | some v => x.2 v

/-- Lines 485-494: what each plugin gets, and whether one of them refuses it. -/
def dispatch (accepts : Str → Json → Bool) (j : Json) : List Str → List (Str × Json) × Out
  | [] => ([], .ok)
  | n :: ns =>
    match hasParam (some j) n with
    | none => ([], .refused)
    | some false => dispatch accepts j ns
    | some true => match getParam (some j) n with
      | none => ([], .refused)
      | some v => if accepts n v then ((n, v) :: (dispatch accepts j ns).1, (dispatch accepts j ns).2) else ([(n, v)], .refused)

/-- `configure`. `apply`: the plugins after the settings have been applied; `none`: one of them is refused for what it says. -/
def configure (apply : Json → Option (List Str)) (accepts : Str → Json → Bool) (j : Json) : List (Str × Json) × Out :=
  if own.all (fits j) then match apply j with
    | some plugins => dispatch accepts j plugins
    | none => ([], .refused)
  else ([], .refused)

end Verif.Dispatch
