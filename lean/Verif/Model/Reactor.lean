/-
Model of the event loop used by receiver and processor.
Source: /repo/cpp/common/src/IpcReactor.cpp: IpcReactorTimer 24-123, register_channel/remove_channel 161-182,
register_socket/remove_socket 184-196, register_timer 210-225, remove_timer 231-236, run 247-339, stop 345-348,
rebuild_pollitems 356-402, calculate_timeout 411-436; /repo/cpp/common/include/IpcReactor.h.

Times are milliseconds. `TimeMs` is a signed 64-bit and a delay an unsigned 64-bit integer, so their sum is computed
modulo 2^64. Clock readings are inputs. Channels and sockets are numbers in the order in which they are polled; what a
callback does with the reactor is an input as well. Calls of other threads are allowed for the operations that take the
mutex and for `stop`. The identifiers are taken from a counter of the class; that two reactors may increment it at the
same time is the subject of Model/Watchdog.
-/
namespace Verif.Reactor

/-- Conversion to `int64_t`. -/
def wrap (i : Int) : Int := (i + 9223372036854775808) % 18446744073709551616 - 9223372036854775808

/-- `IpcReactorTimer`. -/
structure Timer where
  id : Nat
  delay : Nat
  times : Nat
  due : Int
  expired : Bool := false
deriving DecidableEq, Repr

/-- The constructor, at a clock reading. -/
def create (id : Nat) (now : Int) (delay times : Nat) : Timer := { id, delay, times, due := wrap (now + delay) }

/-- `do_callback`, after the callback. -/
def Timer.after (t : Timer) : Timer :=
  if t.times = 1 then { t with times := 0, expired := true }
  else { t with times := t.times - 1, due := wrap (t.due + t.delay) }

/-- What can be observed. -/
inductive Ev
  | reg (id : Nat) (start : Int) (delay times : Nat)
  | rm (id : Nat)
  | fire (id : Nat) (at_ : Int)
  | join (c : Nat)
  | leave (c : Nat)
  | call (c : Nat)
  | turn                                -- the loop begins another round
deriving DecidableEq, Repr

structure St where
  timers : List Timer := []            -- the map, in the order of the identifiers
  next : Nat := 0                      -- `last_timer_id_`
  chans : List Nat := []               -- the keys of `channels_` and `sockets_`
  poll : List Nat := []                -- `pollitems_` and `callbacks_`
  rebuild : Bool := true
  stopped : Bool := false
  log : List Ev := []
deriving DecidableEq, Repr

/-- What a callback, or another thread, does with the reactor. -/
inductive Act
  | regTimer (now : Int) (delay times : Nat)
  | rmTimer (id : Nat)
  | regChan (c : Nat)
  | rmChan (c : Nat)
  | stop
  | others (n : Nat)                   -- other reactors take identifiers
deriving DecidableEq, Repr

/-- Insertion into the ordered set of channels. -/
def insertChan (c : Nat) : List Nat → List Nat
  | [] => [c]
  | d :: l => if c < d then c :: d :: l else if c = d then d :: l else d :: insertChan c l

def act (s : St) : Act → St
  | .regTimer now delay times =>
    { s with timers := s.timers ++ [create s.next now delay times], next := s.next + 1,
             log := s.log ++ [.reg s.next now delay times] }
  | .rmTimer id => { s with timers := s.timers.filter (fun t => decide (t.id ≠ id)), log := s.log ++ [.rm id] }
  | .regChan c => { s with chans := insertChan c s.chans, rebuild := true, log := s.log ++ [.join c] }
  | .rmChan c => { s with chans := s.chans.filter (fun d => decide (d ≠ c)), rebuild := true, log := s.log ++ [.leave c] }
  | .stop => { s with stopped := true }
  | .others n => { s with next := s.next + n }

def acts (s : St) (l : List Act) : St := l.foldl act s

/-- The operations that take the mutex. -/
def Act.locks : Act → Bool
  | .regTimer _ _ _ => true
  | .rmTimer _ => true
  | _ => false

/-- `calculate_timeout` with its two clock readings; `none`: the difference overflows, which is undefined. -/
def earliest (l : List Timer) (limit : Int) : Int := l.foldl (fun m t => if m > t.due then t.due else m) limit

def timeout (l : List Timer) (now1 now2 : Int) : Option Int :=
  let d := earliest l (now1 + 3600000) - now2
  if d < -9223372036854775808 ∨ 9223372036854775807 < d then none
  else some (if d < 0 then 0 else d)

/-- The inputs of one round of the loop. -/
structure Round where
  during : List Act := []              -- of other threads while the loop polls
  ready : Nat → Bool := fun _ => false -- channels with input
  chan : Nat → List Act := fun _ => [] -- what the callback of a channel does
  clock : Nat → Int                    -- the clock when a timer is looked at
  timer : Nat → List Act := fun _ => [] -- what the callback of a timer does

/-- The callbacks of the ready channels, in the order of the poll items. -/
def channels (r : Round) : List Nat → St → St
  | [], s => s
  | c :: l, s =>
    if r.ready c then channels r l (acts { s with log := s.log ++ [.call c] } (r.chan c)) else channels r l s

/-- Keep a timer in the map unless it has expired. -/
def keep (t : Timer) (s : St) : St := if t.expired then s else { s with timers := s.timers ++ [t] }

/-- The timers that have not been looked at yet; `none`: a callback waits for the mutex held by its own thread. -/
def fires (r : Round) : List Timer → St → Option St
  | [], s => some s
  | t :: l, s =>
    if t.due ≤ r.clock t.id then
      if (r.timer t.id).any Act.locks then none
      else fires r l (keep t.after (acts { s with log := s.log ++ [.fire t.id (r.clock t.id)] } (r.timer t.id)))
    else fires r l (keep t s)

/-- `rebuild_pollitems`, if requested. -/
def rebuilt (s : St) : St := if s.rebuild then { s with poll := s.chans, rebuild := false } else s

/-- How a call of the loop stands. -/
inductive Res
  | again (s : St)
  | left (s : St)                      -- `run` returns
  | hang                               -- the loop waits for ever
deriving DecidableEq, Repr

/-- One round of `run` in which poll does not fail. -/
def round (r : Round) (s : St) : Res :=
  if s.stopped then .left s
  else if (rebuilt s).poll = [] ∧ (rebuilt s).timers = [] then .left (rebuilt s)
  else
    let u := rebuilt { s with log := s.log ++ [.turn] }
    let v := channels r u.poll (acts u r.during)
    match fires r v.timers { v with timers := [] } with
    | none => .hang
    | some w => .again w

/-- The states of a reactor: after any rounds, and any operations in between. -/
inductive Reach (P : Act → Prop) (Q : Round → Prop) : St → Prop
  | init : Reach P Q {}
  | act (s : St) (a : Act) : Reach P Q s → P a → Reach P Q (act s a)
  | round (s t : St) (r : Round) : Reach P Q s → Q r → round r s = .again t → Reach P Q t

end Verif.Reactor
