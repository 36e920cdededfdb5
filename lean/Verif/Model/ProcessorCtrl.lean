import Verif.Model.IpcMessage
/-
Model of the control channel of the frame processor.
Source: /repo/cpp/frameProcessor/src/FrameProcessorController.cpp: handleCtrlChannel 109-201.

The commands themselves appear as an environment that says how each of them ends.
-/
namespace Verif.ProcessorCtrl
open Verif.Ipc

/-- How the method behind a command ends; `nack`: it has turned the reply into a negative one. -/
inductive Out
  | ok
  | nack
  | message          -- `IpcMessageException`
  | runtime          -- `std::runtime_error` or derived from it
  | other            -- any other exception
deriving DecidableEq, Repr

/-- A reply; without a client the message has no address and the router socket drops it. -/
structure Reply where
  client : Option Str
  type : MsgType
  val : MsgVal
  id : Nat
deriving DecidableEq

/-- The commands of lines 129-180. -/
def known : MsgVal → Bool
  | .configure | .requestConfiguration | .execute | .requestCommands | .status | .requestVersion
  | .resetStatistics | .shutdown => true
  | _ => false

/-- `handleCtrlChannel` with a parsed document (`none`: not JSON): the messages sent, and whether an exception leaves it. -/
def handleCtrl (T : Times) (run : MsgVal → Out) (client : Str) (doc : Option Json) : List Reply × Bool :=
  match doc.bind (decode T true) with
  | none => ([], false)                                   -- lines 188-191: logged only
  | some m =>
    let id := m.id.getD 0
    if m.type = .cmd ∧ known m.val = true then
      match run m.val with
      | .ok => ([⟨some client, .ack, m.val, id⟩], false)
      | .nack => ([⟨some client, .nack, m.val, id⟩], false)
      | .message => ([], false)
      | .runtime => ([⟨none, .nack, .configure, id⟩], false)
      | .other => ([], true)
    else ([⟨some client, .nack, m.val, id⟩], false)

end Verif.ProcessorCtrl
