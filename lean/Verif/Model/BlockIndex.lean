/-
Model of the indices of data blocks when several threads use pools.
Source: /repo/cpp/frameProcessor/src/DataBlock.cpp:14, 28-30 (`index_ = DataBlock::index_counter_++`, one counter for all pools);
DataBlockPool.cpp: internal_allocate 145-163, internal_take 172-201, internal_release 209-222, each under the mutex of its pool.

A block is known by the order in which blocks came to be; its index is what the constructor read from the counter. The
increment is a load and a store, as compiled; in C++ two such increments at once are undefined, and this is what the hardware
does with them. A thread between the two holds the mutex of one pool. `internal_take` is a number of allocations, each a load
and a store, followed by `take`; other threads may act between the allocations, which the mutex forbids in part, so that more
histories are allowed than there are. Blocks of another size (`resize`) do not occur in a pool. Indices are natural numbers.
-/
namespace Verif.BlockIndex

/-- DataBlockPool.h:52-65. `held` are the blocks of frames, each frame having a pointer to its block (DataBlockFrame.h). -/
structure Pool where
  free : List Nat := []              -- free_list_
  map : List (Nat × Nat) := []       -- used_map_: index and block
  held : List Nat := []
  freeN : Nat := 0                   -- free_blocks_
  usedN : Nat := 0                   -- used_blocks_
deriving DecidableEq, Repr

/-- A thread in the constructor of a block of a pool, and the value it has loaded. -/
structure Busy where
  thread : Nat
  pool : Nat
  value : Nat
deriving DecidableEq, Repr

structure Sys where
  pool : Nat → Pool := fun _ => {}
  index : Nat → Nat := fun _ => 0    -- index_ of a block
  next : Nat := 0                    -- the number of blocks there are
  counter : Nat := 0                 -- DataBlock::index_counter_
  busy : List Busy := []

/-- Change one value of a function. -/
def upd {α} (f : Nat → α) (k : Nat) (v : α) : Nat → α := fun i => if i = k then v else f i

inductive Ev
  | load (t k : Nat)                 -- a thread starts to construct a block for a pool
  | store (t : Nat)                  -- and ends
  | take (k : Nat)
  | release (k b : Nat)
deriving DecidableEq, Repr

/-- Whether the mutex of the pool is held by a thread that constructs a block. -/
def locked (y : Sys) (k : Nat) : Bool := y.busy.any (fun u => u.pool == k)

/-- Whether the thread is in the constructor of a block. -/
def within (y : Sys) (t : Nat) : Bool := y.busy.any (fun u => u.thread == t)

/-- DataBlockPool.cpp:155-160. -/
def Pool.add (p : Pool) (b : Nat) : Pool := { p with free := b :: p.free, freeN := p.freeN + 1 }

/-- DataBlockPool.cpp:187-197: `used_map_[block->get_index()] = block`. -/
def Pool.take (p : Pool) (index : Nat → Nat) : Pool :=
  match p.free with
  | [] => p
  | b :: rest =>
    { free := rest, map := (index b, b) :: p.map.filter (fun e => e.1 ≠ index b), held := b :: p.held,
      freeN := p.freeN - 1, usedN := p.usedN + 1 }

/-- DataBlockPool.cpp:216-221. -/
def Pool.release (p : Pool) (index : Nat → Nat) (b : Nat) : Pool :=
  { free := b :: p.free, map := p.map.filter (fun e => e.1 ≠ index b), held := p.held.erase b,
    freeN := p.freeN + 1, usedN := p.usedN - 1 }

/-- The load of the counter. -/
def load (y : Sys) (t k : Nat) : Sys :=
  { y with busy := ⟨t, k, y.counter⟩ :: y.busy }

/-- The store of the counter, the index of the block, and the pool it goes to. -/
def store (y : Sys) (u : Busy) : Sys :=
  { pool := upd y.pool u.pool ((y.pool u.pool).add y.next)
    index := upd y.index y.next u.value
    next := y.next + 1
    counter := u.value + 1
    busy := y.busy.filter (fun v => v.thread ≠ u.thread) }

/-- One step; what the mutex or the threads do not allow changes nothing. -/
def step (y : Sys) : Ev → Sys
  | .load t k => if locked y k || within y t then y else load y t k
  | .store t =>
    match y.busy.find? (fun u => u.thread == t) with
    | none => y
    | some u => store y u
  | .take k => if locked y k then y else { y with pool := upd y.pool k ((y.pool k).take y.index) }
  | .release k b =>
    if locked y k || !(y.pool k).held.contains b then y
    else { y with pool := upd y.pool k ((y.pool k).release y.index b) }

def run (y : Sys) (es : List Ev) : Sys := es.foldl step y

end Verif.BlockIndex
