/-!
Pools of memory blocks asked for by several threads.

* cpp/frameProcessor/src/DataBlockPool.cpp: `instance` 116-122, `take` 42-45 and `release` 54-57, which call it

The map of pools is a static variable without a lock: the thread of every plugin (and of the shared memory controller) looks a pool up, makes
one if there is none, and looks it up again. One size of blocks is modelled; pools are numbered in the order they are made. That concurrent use
of a `std::map` is itself undefined is not modelled.
-/
namespace Verif.PoolRace

inductive Pc
  | check        -- `instance_map_.count(block_size) == 0`
  | create       -- `instance_map_[block_size] = new DataBlockPool()`
  | load         -- `return instance_map_[block_size]`
  | has (pool : Option Nat)
deriving DecidableEq, Repr

structure St where
  map : Option Nat := none
  next : Nat := 0                          -- pools made
  pc : Nat → Pc := fun _ => .check

def upd (f : Nat → Pc) (k : Nat) (v : Pc) : Nat → Pc := fun i => if i = k then v else f i

/-- A step of thread `t`. -/
def step (s : St) (t : Nat) : St :=
  match s.pc t with
  | .check => { s with pc := upd s.pc t (if s.map.isNone then .create else .load) }
  | .create => { map := some s.next, next := s.next + 1, pc := upd s.pc t .load }
  | .load => { s with pc := upd s.pc t (.has s.map) }
  | .has _ => s

def run (s : St) (l : List Nat) : St := l.foldl step s

end Verif.PoolRace
