import Verif.Model.IpcMessage

/-!
The tables of the names of message types and message values, filled at their first use, with several threads.

* cpp/common/src/IpcMessage.cpp: `msg_type_map_init` 537-543, both `valid_msg_type` 553-592, `msg_val_map_init` 599-618, both `valid_msg_val` 628-666,
  the two static maps

The maps are static variables without a lock. Each access to a map is one step here; that concurrent use of a `boost::bimap` is itself
undefined is not modelled. A thread makes one lookup; one that makes several is several threads whose steps do not interleave.
-/
namespace Verif.NameMaps

open Verif.Ipc (Str bimapInsert left right)

/-- What is asked for: the value of a name or the name of a value. -/
inductive Query (α : Type)
  | byName (k : Str)
  | byValue (v : α)
deriving DecidableEq, Repr

inductive Found (α : Type)
  | value (v : α)
  | name (k : Str)
deriving DecidableEq, Repr

/-- Where a thread is in `valid_msg_type` or `valid_msg_val`, IpcMessage.cpp:553-592 and 628-666. -/
inductive Pc (α : Type)
  | check                                -- `msg_type_map_.size() == 0`
  | insert (rest : List (String × α))    -- in `msg_type_map_init`, with the entries still to insert
  | count                                -- `left.count(...)`, `right.count(...)`
  | look                                 -- `left.at(...)`, `right.at(...)`
  | done (r : Option (Found α))          -- `none`: MsgTypeIllegal, MsgValIllegal, "illegal"
  | thrown                               -- std::out_of_range of `at`
deriving DecidableEq, Repr

structure St (α : Type) where
  map : List (Str × α) := []
  pc : Nat → Pc α := fun _ => .check

def upd {α : Type} (f : Nat → Pc α) (k : Nat) (v : Pc α) : Nat → Pc α := fun i => if i = k then v else f i

/-- The lookup in the map as it is. -/
def lookup {α : Type} [DecidableEq α] (m : List (Str × α)) : Query α → Option (Found α)
  | .byName k => (left m k).map .value
  | .byValue v => (right m v).map .name

/-- The branch on the size, IpcMessage.cpp:557, 581, 632, 656. -/
def checked {α : Type} (table : List (String × α)) (m : List (Str × α)) : Pc α := if m.length = 0 then .insert table else .count

/-- The branch on the count, IpcMessage.cpp:562, 586, 637, 661. -/
def counted {α : Type} [DecidableEq α] (m : List (Str × α)) (q : Query α) : Pc α := if (lookup m q).isSome then .look else .done none

/-- `at`, IpcMessage.cpp:564, 588, 639, 663. -/
def looked {α : Type} [DecidableEq α] (m : List (Str × α)) (q : Query α) : Pc α :=
  match lookup m q with
  | some r => .done (some r)
  | none => .thrown

/-- A step of thread `t`, which asks for `q t`. -/
def step {α : Type} [DecidableEq α] (table : List (String × α)) (q : Nat → Query α) (s : St α) (t : Nat) : St α :=
  match s.pc t with
  | .check => ⟨s.map, upd s.pc t (checked table s.map)⟩
  | .insert [] => ⟨s.map, upd s.pc t .count⟩
  | .insert (e :: rest) => ⟨bimapInsert s.map e, upd s.pc t (.insert rest)⟩
  | .count => ⟨s.map, upd s.pc t (counted s.map (q t))⟩
  | .look => ⟨s.map, upd s.pc t (looked s.map (q t))⟩
  | .done _ => s
  | .thrown => s

/-- Threads in any order. -/
def run {α : Type} [DecidableEq α] (table : List (String × α)) (q : Nat → Query α) (s : St α) (l : List Nat) : St α := l.foldl (step table q) s

end Verif.NameMaps
