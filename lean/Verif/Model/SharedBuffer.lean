/-
Model of the shared buffer manager.
Source: /repo/cpp/common/src/SharedBufferManager.cpp: creating constructor 15-56, attaching constructor 58-80,
get_num_buffers 94-97, get_buffer_size 99-102, get_buffer_address 104-113; SharedBufferManager.h: Header.

A shared memory object of one name is a number of bytes and the header at its beginning. Addresses are offsets
from the start of the mapping. Memory sizes are `size_t`; running out of memory is not modelled.
-/
namespace Verif.SharedBuffer

/-- `sizeof(Header)`: three `size_t`. -/
def headerSize : Nat := 24

structure Header where
  id : Nat := 0
  num : Nat := 0
  size : Nat := 0
deriving DecidableEq, Repr

/-- The shared memory object. -/
structure Region where
  bytes : Nat := 0
  hdr : Header := {}
deriving DecidableEq, Repr

/-- A manager object: the length of its mapping. -/
structure Handle where
  mapped : Nat
deriving DecidableEq, Repr

/-- `truncate`: a header that does not fit is lost. -/
def truncate (r : Region) (n : Nat) : Region :=
  { bytes := n, hdr := if headerSize ≤ r.bytes ∧ headerSize ≤ n then r.hdr else {} }

/-- `sizeof(Header) + shared_mem_size_`, line 31: modulo 2^64. -/
def total (mem : Nat) : Nat := (headerSize + mem) % 2 ^ 64

/-- Lines 34-48, after `truncate`: an empty object cannot be mapped. A mapping consists of whole pages, so a header fits into
every one. -/
def fill (r : Region) (id mem size : Nat) : Region × Option Handle :=
  if r.bytes = 0 then (r, none)
  else if mem / size = 0 then (r, none)
  else ({ r with hdr := { id := id, num := mem / size, size := size } }, some ⟨r.bytes⟩)

/-- The creating constructor, `open_or_create`; `none` in the result: an exception. The argument of `truncate` is a
signed number, which must not be negative. -/
def create (r : Option Region) (id mem size : Nat) : Region × Option Handle :=
  let r := r.getD {}
  if size = 0 then (r, none)
  else if total mem ≥ 2 ^ 63 then (r, none)
  else fill (truncate r (total mem)) id mem size

/-- The attaching constructor, `open_only`; an empty object cannot be mapped. -/
def attach : Option Region → Option Handle
  | none => none
  | some r => if r.bytes = 0 then none else some ⟨r.bytes⟩

/-- `get_buffer_address(const unsigned int)`; the callers pass an `int`. `none`: an exception. -/
def address (r : Region) (buffer : Int) : Option Nat :=
  let b := (buffer % 4294967296).toNat
  if b ≥ r.hdr.num then none else some (headerSize + b * r.hdr.size)

end Verif.SharedBuffer
