/-
Model of the memory of JSON documents.
Source: /repo/cpp/common/include/rapidjson/allocators.h: MemoryPoolAllocator 102-270 (Clear 145-153, Malloc 176-188, Realloc 191-222,
AddChunk 237-249, ChunkHeader 256-260); /repo/cpp/common/include/rapidjson/rapidjson.h: RAPIDJSON_ALIGN 273.

The documents of odin-data use the constructor without a buffer, 110-113, so `userBuffer_` is null and Clear frees all chunks.
Memory is a function from addresses to bytes. What the C library gives for a chunk is an argument: for a number of bytes an address, or `none`
(null). The fields of a chunk header are part of the state instead of the memory; C151 says that no block covers a header. Arithmetic is modulo 2^64.
-/
namespace Verif.PoolAllocator

/-- `RAPIDJSON_ALIGN`, rapidjson.h:273. -/
def align (n : Nat) : Nat := (n + 7) % 2 ^ 64 / 8 * 8

/-- `RAPIDJSON_ALIGN(sizeof(ChunkHeader))`, allocators.h:256-260. -/
def header : Nat := 24

/-- `ChunkHeader`, where it is, and how many bytes the C library gave for the chunk. -/
structure Chunk where
  base : Nat
  capacity : Nat
  size : Nat
  given : Nat
  deriving DecidableEq, Repr

/-- `chunkHead_` and the chunks behind it, and `chunk_capacity_`. -/
structure Pool where
  chunks : List Chunk
  chunkCapacity : Nat
  deriving Repr

/-- A new pool, allocators.h:110-113 and 251. -/
def Pool.new : Pool := ⟨[], 64 * 1024⟩

/-- `Clear`, allocators.h:145-153. -/
def clear (p : Pool) : Pool := { p with chunks := [] }

/-- What `AddChunk` asks the C library for, allocators.h:240. -/
def request (capacity : Nat) : Nat := (header + capacity) % 2 ^ 64

/-- `AddChunk`, allocators.h:237-249; `lib` is the C library. -/
def addChunk (p : Pool) (capacity : Nat) (lib : Nat → Option Nat) : Option Pool :=
  match lib (request capacity) with
  | none => none
  | some b => some { p with chunks := ⟨b, capacity, 0, request capacity⟩ :: p.chunks }

/-- Whether the first chunk is missing or too small, allocators.h:181. -/
def full (p : Pool) (size : Nat) : Bool :=
  match p.chunks with
  | [] => true
  | c :: _ => decide ((c.size + size) % 2 ^ 64 > c.capacity)

/-- The capacity of the chunk that is added, allocators.h:182. -/
def newCapacity (p : Pool) (size : Nat) : Nat := if p.chunkCapacity > size then p.chunkCapacity else size

/-- allocators.h:185-187. -/
def take (p : Pool) (size : Nat) : Pool × Option Nat :=
  match p.chunks with
  | [] => (p, none)
  | c :: cs => ({ p with chunks := ⟨c.base, c.capacity, (c.size + size) % 2 ^ 64, c.given⟩ :: cs }, some ((c.base + header + c.size) % 2 ^ 64))

/-- `Malloc`, allocators.h:176-188. -/
def malloc (p : Pool) (size : Nat) (lib : Nat → Option Nat) : Pool × Option Nat :=
  if size = 0 then (p, none)
  else if full p (align size) then
    match addChunk p (newCapacity p (align size)) lib with
    | none => (p, none)
    | some p' => take p' (align size)
  else take p (align size)

abbrev Mem := Nat → Nat

/-- `memcpy`. -/
def copy (m : Mem) (dst src n : Nat) : Mem := fun x => if dst ≤ x ∧ x < dst + n then m (x - dst + src) else m x

/-- Where a block of a size would have to begin to be the last one, allocators.h:206. -/
def lastStart (c : Chunk) (size : Nat) : Nat := (c.base + header + c.size + (2 ^ 64 - size)) % 2 ^ 64

/-- Expansion of the last block, allocators.h:206-212; the dereference of `chunkHead_` needs a chunk. -/
def expand (p : Pool) (ptr old new : Nat) : Option Pool :=
  match p.chunks with
  | [] => none
  | c :: cs =>
    if ptr = lastStart c old ∧ (c.size + (new - old)) % 2 ^ 64 ≤ c.capacity then
      some { p with chunks := ⟨c.base, c.capacity, (c.size + (new - old)) % 2 ^ 64, c.given⟩ :: cs }
    else none

/-- The last part of `Realloc`, allocators.h:215-221. -/
def move (p : Pool) (m : Mem) (ptr old new : Nat) (lib : Nat → Option Nat) : Pool × Mem × Option Nat :=
  match malloc p new lib with
  | (p', some q) => (p', if old ≠ 0 then copy m q ptr old else m, some q)
  | (p', none) => (p', m, none)

/-- `Realloc`, allocators.h:191-222. -/
def realloc (p : Pool) (m : Mem) (ptr : Option Nat) (oldSize newSize : Nat) (lib : Nat → Option Nat) : Pool × Mem × Option Nat :=
  match ptr with
  | none => ((malloc p newSize lib).1, m, (malloc p newSize lib).2)
  | some a =>
    if newSize = 0 then (p, m, none)
    else if align oldSize ≥ align newSize then (p, m, some a)
    else
      match expand p a (align oldSize) (align newSize) with
      | some p' => (p', m, some a)
      | none => move p m a (align oldSize) (align newSize) lib

end Verif.PoolAllocator
