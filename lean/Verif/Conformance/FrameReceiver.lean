import Verif.Model.SharedBuffer
import Verif.Model.JsonText
import Verif.Model.Receiver
import Verif.Model.Reactor
import Verif.Model.Channel
import Verif.Model.Circulation
/-
The assertions of the project's own unit tests of messages, channels, reactor, shared memory and receiver, made about the
model. They say nothing about all inputs; they show that the model gives the values which the authors of the code
expect of it. Source: /repo/cpp/frameReceiver/test.
-/
namespace Verif.Conformance

/-! ## SharedBufferManagerUnitTest.cpp -/
section
open Verif.SharedBuffer

/-- Lines 13-16, 23: ten buffers of 100 bytes. -/
def tsb : Region × Option Handle := create none 1 1000 100

/-- 38-51. -/
example : tsb.2.isSome = true ∧ (address tsb.1 0).isSome = true ∧ tsb.1.hdr.size = 100 ∧ tsb.1.hdr.num = 10 ∧ address tsb.1 10 = none := by
  decide
/-- 53-145: a second manager sees the same identifier, sizes and addresses. -/
example : (attach (some tsb.1)).isSome = true ∧ tsb.1.hdr.id = 1 ∧ address tsb.1 9 = some 924 := by decide
/-- 147-172: a name that does not exist, a buffer bigger than the memory, no buffer size, no memory. -/
example : attach none = none ∧ (create none 1 100 1000).2 = none ∧ (create none 1 100 0).2 = none ∧ (create none 1 0 1000).2 = none := by
  decide
end

/-! ## IpcMessageUnitTest.cpp -/
section
open Verif.Ipc Verif.JsonText

/-- Time stamps of the tests: one is well formed. -/
def stamp : Str := "2015-01-27T15:26:01.123456".toList
def stamps : Times := ⟨fun _ => stamp, fun s => if s = stamp then some 0 else none⟩
/-- Numbers that are not integers: their text stands for them. -/
def dbls : Str → Option Nat := fun s => if s = "3.1415".toList then some 31415 else none

def made (strict : Bool) (s : String) : Made := decodeText dbls 100 stamps strict s.toList

/-- `is_valid`, /repo/cpp/common/src/IpcMessage.cpp:273-279. -/
def valid (m : Msg) : Bool := m.type != .illegal && m.val != .illegal && m.time.isSome && hasParams m.doc

/-- Look at a message. -/
def Made.look {α : Type} (f : Msg → α) : Made → Option α
  | .msg m => some (f m)
  | _ => none

def intParam (m : Msg) (n : String) : Option Int := (getParam m.params n.toList).bind Json.asInt
def strParam (m : Msg) (n : String) : Option Str := (getParam m.params n.toList).bind Json.asStr

/-- Lines 21-29. -/
def validText : String := "{\"msg_type\":\"cmd\", \"msg_val\":\"status\", \"timestamp\" : \"2015-01-27T15:26:01.123456\", \"params\" : {    \"paramInt\" : 1234,     \"paramStr\" : \"testParam\",     \"paramDouble\" : 3.1415   } }"

/-- 18-53: a message from a text, its parameters, and a missing one. -/
example : Made.look (fun m => (valid m, m.type, m.val)) (made true validText) = some (true, .cmd, .status) := by decide +kernel
example : Made.look (fun m => (intParam m "paramInt", strParam m "paramStr", intParam m "missingParam"))
    (made true validText) = some (some 1234, some "testParam".toList, none) := by decide +kernel
example : Made.look (fun m => (match getParam m.params "paramDouble".toList with | some (.dbl d) => d | _ => 0,
    match getParamOr m.params "missingParam".toList with | some none => true | _ => false)) (made true validText) =
    some (31415, true) := by decide +kernel

/-- 55-81: an empty message is not valid; with type and value it is. -/
example : valid {} = false ∧ valid { ({} : Msg) with type := .cmd, val := .reset, time := some 0 } = true := by decide

/-- `set_param` on a message. -/
def put (m : Msg) (n : String) (v : Json) : Msg := { m with doc := (setDoc m.doc n.toList v).1 }

/-- 83-114. -/
def msgA : Msg := put (put (put (put {} "paramInt" (.num 1234)) "paramInt2" (.num 90210)) "paramInt3" (.num 4567)) "paramStr"
  (.str "paramString".toList)
example : [intParam msgA "paramInt", intParam msgA "paramInt2", intParam msgA "paramInt3"] = [some 1234, some 90210, some 4567] ∧
    strParam msgA "paramStr" = some "paramString".toList := by decide +kernel
def msgB : Msg := put (put msgA "paramInt2" (.num 228724)) "paramStr" (.str "another string".toList)
example : intParam msgB "paramInt2" = some 228724 ∧ strParam msgB "paramStr" = some "another string".toList := by decide +kernel

/-- 116-160: `update`. -/
def msgC : Msg := put (put (put (put {} "paramInt2" (.num 90310)) "paramInt4" (.num 42)) "paramStr" (.str "newParamStr".toList)) "paramStr2"
  (.str "paramStr2".toList)
def updated : Option Json := match msgC.params, msgA.params with
  | some o, some p => some (update o p).1
  | _, _ => none
example : ["paramInt", "paramInt2", "paramInt3", "paramInt4"].map (fun n => (getParam updated n.toList).bind Json.asInt) =
      [some 1234, some 90310, some 4567, some 42] ∧
    ["paramStr", "paramStr2"].map (fun n => (getParam updated n.toList).bind Json.asStr) =
      [some "newParamStr".toList, some "paramStr2".toList] := by decide +kernel

/-- 162-200: to text and back. -/
def sent : Msg := { msgA with type := .cmd, val := .reset, time := some 0 }
def received : Option Made := (encodeText (fun _ => none) stamps sent).map (decodeText dbls 100 stamps true)
example : received.bind (Made.look (fun m => (m.type, m.val, m.time))) = some (.cmd, .reset, some 0) := by decide +kernel
example : received.bind (Made.look (fun m => ["paramInt", "paramInt2", "paramInt3"].map (intParam m))) =
    some [some 1234, some 90210, some 4567] := by decide +kernel
example : received.bind (Made.look (fun m => strParam m "paramStr")) = some (some "paramString".toList) := by decide +kernel
/-- 202-235: equality of the parameters (the comparison of type, value and time stamp is the one above). -/
example : received.bind (Made.look (fun m => match m.params, sent.params with
    | some a, some b => MessageEq.valEq a b
    | _, _ => false)) = some true := by decide +kernel

def refused : Made → Bool
  | .refused => true
  | _ => false

/-- 237-241. -/
example : refused (made true "{\"wibble\" : \"wobble\" \"shouldnt be here\"}") = true := by decide +kernel

def wrongType : String := "{\"msg_type\":\"wrong\", \"msg_val\":\"status\", \"timestamp\" : \"2015-01-27T15:26:01.123456\" }"
def wrongVal : String := "{\"msg_type\":\"cmd\", \"msg_val\":\"wrong\", \"timestamp\" : \"2015-01-27T15:26:01.123456\" }"
def wrongTime : String := "{\"msg_type\":\"cmd\", \"msg_val\":\"status\", \"timestamp\" : \"1 Jan 1970 00:00:00\" }"
def noParams : String := "{\"msg_type\":\"cmd\", \"msg_val\":\"status\", \"timestamp\" : \"2015-01-27T15:26:01.123456\" }"

/-- 243-271: accepted without strict validation, but not valid. -/
example : [wrongType, wrongVal, wrongTime].map (fun s => Made.look valid (made false s)) = [some false, some false, some false] := by
  decide +kernel
/-- 273-303: refused with strict validation. -/
example : [wrongType, wrongVal, wrongTime, noParams].map (fun s => refused (made true s)) = [true, true, true, true] := by decide +kernel
end

/-! ## FrameReceiverConfigUnitTest.cpp, FrameReceiverRxThreadUnitTest.cpp:35 -/
example : Receiver.tokenize "8989,8990".toList = [8989, 8990] ∧ Receiver.tokenize "6342,".toList = [6342] := by decide +kernel

/-- FrameReceiverRxThreadUnitTest.cpp:144-167: a thread announces itself and asks for buffers. -/
example : Circulation.hello 3 [] = [.identity 3, .request] := by decide

/-! ## IpcReactorUnitTest.cpp -/
section
open Verif.Reactor

/-- Rounds one after the other at these times, until the loop ends. -/
def rounds (chan : List Act) (ready : Bool) : List Int → St → Option St
  | [], _ => none
  | t :: l, s => match round { clock := fun _ => t, ready := fun _ => ready, chan := fun _ => chan } s with
    | .left u => some u
    | .again u => rounds chan ready l u
    | .hang => none

def firings (s : St) : Nat := (s.log.filter (fun e => match e with | .fire _ _ => true | _ => false)).length
def calls (s : St) : Nat := (s.log.filter (fun e => match e with | .call _ => true | _ => false)).length

/-- 70-77: a timer fires ten times, and the loop ends. -/
example : (rounds [] false ((List.range 30).map (fun i => ((5 * i : Nat) : Int))) (act {} (.regTimer 0 10 10))).map firings = some 10 := by
  decide +kernel
/-- 79-89: the callback of a channel stops the loop. -/
example : (rounds [.stop] true [0, 1] (act {} (.regChan 4))).map calls = some 1 := by decide +kernel
end

/-! ## IpcChannelUnitTest.cpp:79-106: a message and who has sent it. -/
example : Channel.recv (Channel.queue [⟨"DR_CHANNEL", ["DR test message"]⟩]) = .got "DR_CHANNEL" "DR test message" [] := rfl

end Verif.Conformance
