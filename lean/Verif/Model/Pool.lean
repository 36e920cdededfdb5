/-
Model of the pool of data blocks and of the frames that live in it.
Source: /repo/cpp/frameProcessor/src/DataBlockPool.cpp: instance 110-116, internal_allocate 145-163,
internal_take 172-201, internal_release 209-222; DataBlock.cpp: constructor 23-37, resize 76-92, copy_data
102-111; DataBlockFrame.cpp: constructors 13-41, operator= 48-56, destructor 61-63.

A block is its index. The pools are a function from the block size, a pool never used being empty. Every
operation is atomic (`mutex_`; the map of the instances itself is not protected by a lock in the code, which
is not modelled). Failing memory allocation is not modelled. Counters are unbounded integers.
-/
namespace Verif.Pool

structure Pool where
  free : List Nat := []      -- free_list_
  used : List Nat := []      -- keys of used_map_
  freeN : Int := 0
  usedN : Int := 0
  total : Nat := 0
  mem : Int := 0
deriving DecidableEq, Repr

structure Sys where
  pool : Nat → Pool := fun _ => {}     -- instance_map_
  size : Nat → Nat := fun _ => 0       -- allocated_bytes_ of every block
  next : Nat := 0                      -- DataBlock::index_counter_

/-- Change one value of a function. -/
def upd {α} (f : Nat → α) (k : Nat) (v : α) : Nat → α := fun i => if i = k then v else f i

/-- One pass of the loop of `internal_allocate`. -/
def allocOne (k : Nat) (y : Sys) : Sys :=
  { pool := upd y.pool k { y.pool k with
      free := y.next :: (y.pool k).free, freeN := (y.pool k).freeN + 1, total := (y.pool k).total + 1,
      mem := (y.pool k).mem + k }
    size := upd y.size y.next k
    next := y.next + 1 }

/-- `internal_allocate` of `n` blocks of `k` bytes. -/
def allocate (k : Nat) : Nat → Sys → Sys
  | 0, y => y
  | n + 1, y => allocate k n (allocOne k y)

/-- The first part of `internal_take`: get blocks if there are none. -/
def refill (k : Nat) (y : Sys) : Sys :=
  if (y.pool k).freeN = 0 then
    if (y.pool k).total = 0 then allocate k 2 y else allocate k (y.pool k).total y
  else y

/-- The second part: hand out the first free block, resized if it has another size. -/
def handOut (k : Nat) (y : Sys) (b : Nat) (rest : List Nat) : Sys :=
  let p := y.pool k
  { y with
    pool := upd y.pool k { p with
      free := rest, used := if b ∈ p.used then p.used else b :: p.used,
      freeN := p.freeN - 1, usedN := p.usedN + 1,
      mem := if y.size b ≠ k then p.mem - y.size b + k else p.mem }
    size := upd y.size b k }

/-- `internal_take`; `none`: a null pointer, or the front of an empty list. -/
def take (k : Nat) (y : Sys) : Option (Sys × Nat) :=
  let y := refill k y
  if (y.pool k).freeN > 0 then
    match (y.pool k).free with
    | [] => none
    | b :: rest => some (handOut k y b rest, b)
  else none

/-- `release`: the pool is that of the block's size. -/
def release (b : Nat) (y : Sys) : Sys :=
  let k := y.size b
  let p := y.pool k
  { y with pool := upd y.pool k { p with
      free := b :: p.free, used := p.used.filter (· ≠ b), usedN := p.usedN - 1, freeN := p.freeN + 1 } }

/-! ## Frames -/

/-- A frame object: its block, and the size of its data (`data_size_`). -/
structure Obj where
  block : Nat
  dataSize : Nat
deriving DecidableEq, Repr

/-- Frames of the process, and the contents of the blocks. -/
structure World where
  sys : Sys := {}
  frames : Nat → Option Obj := fun _ => none
  content : Nat → Nat := fun _ => 0

inductive FOp
  | create (f size : Nat) (v : Nat)        -- construct from data
  | write (f : Nat) (v : Nat)              -- through get_data_ptr()
  | copy (f g junk : Nat)                  -- f(g), copy constructor
  | assign (f g : Nat)                     -- f = g
  | drop (f : Nat)                         -- destructor
deriving DecidableEq, Repr

/-- Construct frame `f` of `k` bytes containing `v`, DataBlockFrame.cpp:13-22. -/
def create (w : World) (f k v : Nat) : Option World :=
  (take k w.sys).map (fun r =>
    { sys := r.1, frames := upd w.frames f (some ⟨r.2, k⟩), content := upd w.content r.2 v })

/-- `operator=`, DataBlockFrame.cpp:48-56: release the block, take one of the data size of the other frame, copy
its data. `Frame::operator=` (Frame.cpp:37-43) does not copy the data size. Reading beyond the other block is
undefined. If both are the same frame the new block is copied onto itself. -/
def assign (w : World) (f g : Nat) (a b : Obj) : Option World :=
  if f ≠ g ∧ b.dataSize > w.sys.size b.block then none
  else (take b.dataSize (release a.block w.sys)).map (fun r =>
    { sys := r.1, frames := upd w.frames f (some ⟨r.2, a.dataSize⟩),
      content := if f = g then w.content else upd w.content r.2 (w.content b.block) })

/-- One operation; operations on frames that do not exist (or, for constructors, do) are not possible in C++
and change nothing. `none`: undefined. The copy constructor shares the block (line 40-41) and leaves the data
size uninitialised (Frame.cpp:25-30): `junk`. -/
def fstep (w : World) : FOp → Option World
  | .create f k v =>
    match w.frames f with
    | none => create w f k v
    | some _ => some w
  | .write f v =>
    match w.frames f with
    | none => some w
    | some a => some { w with content := upd w.content a.block v }
  | .copy f g junk =>
    match w.frames f, w.frames g with
    | none, some b => some { w with frames := upd w.frames f (some ⟨b.block, junk⟩) }
    | _, _ => some w
  | .assign f g =>
    match w.frames f, w.frames g with
    | some a, some b => assign w f g a b
    | _, _ => some w
  | .drop f =>
    match w.frames f with
    | none => some w
    | some a => some { w with sys := release a.block w.sys, frames := upd w.frames f none }

def frun (w : World) : List FOp → Option World
  | [] => some w
  | o :: os => (fstep w o).bind (fun w => frun w os)

end Verif.Pool
