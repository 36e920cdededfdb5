/-!
Meta data messages.

* cpp/frameProcessor/src/MetaMessagePublisher.cpp: `publish_meta` 33-85
* cpp/frameProcessor/src/FrameProcessorController.cpp: `handleMetaRxChannel` 203-252

A plugin makes a message object and sends its address to the controller through its own PUSH socket without waiting; the result of the
send is not looked at. The controller publishes the message of the address it gets and deletes the object. ZeroMQ keeps at most `cap`
addresses per plugin (its high water marks) and keeps their order; from which plugin the controller gets the next one is up to ZeroMQ.
The contents of the published parts are not modelled beyond their coming from the message object.
-/
namespace Verif.Meta

structure St (α : Type) where
  pipe : Nat → List α := fun _ => []       -- addresses under way, per plugin
  sent : List (Nat × α) := []              -- published and deleted, in order
  lost : List (Nat × α) := []              -- never published and never deleted

inductive Op (α : Type)
  | publish (p : Nat) (m : α)              -- `publish_meta` of plugin `p`
  | handle (p : Nat)                       -- `handleMetaRxChannel` gets the oldest address of plugin `p`
deriving DecidableEq, Repr

def upd {α} (f : Nat → α) (k : Nat) (v : α) : Nat → α := fun i => if i = k then v else f i

def step {α} (cap : Nat) (s : St α) : Op α → St α
  | .publish p m =>
    if (s.pipe p).length < cap then { s with pipe := upd s.pipe p (s.pipe p ++ [m]) }
    else { s with lost := s.lost ++ [(p, m)] }
  | .handle p =>
    match s.pipe p with
    | [] => s
    | m :: l => { s with pipe := upd s.pipe p l, sent := s.sent ++ [(p, m)] }

def run {α} (cap : Nat) (s : St α) (l : List (Op α)) : St α := l.foldl (step cap) s

end Verif.Meta
