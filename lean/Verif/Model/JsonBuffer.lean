import Verif.Model.Itoa
import Verif.Model.JsonText
/-
Model of the memory into which JSON is written.
Source: /repo/cpp/common/include/rapidjson/internal/stack.h: Clear 98, Reserve 115-119, Push 122-125, PushUnsafe 128-133,
Pop 136-140, Expand 181-197, Resize 199-204; stringbuffer.h: Put and PutUnsafe 56-57, Clear 60, Reserve, Push and Pop
68-71, GetString 73-79, PutReserve and PutUnsafe 95-104; writer.h: events 172-232, WriteNull and WriteBool 264-279,
WriteString 345-417, brackets 423-426, Prefix 437-455, the specialisations for `StringBuffer` 478-537;
document.h: numbers 634-670, Accept 1768-1805.

`none` is a failed assertion (an exception in IpcMessage.h:58-61, the end of the process or nothing at all elsewhere) or
an access outside the allocated memory. Memory does not run out, so sizes need no wrap-around, except for the count
that `WriteString` computes in 32 bits. The stack of levels is a list. Numbers that are not integers are opaque as in
Verif.JsonText: `D` gives the text `dtoa` writes.
-/
namespace Verif.JsonBuffer
open Verif.Ipc (Str Json)
open Verif.JsonText (Ev)

/-- An internal stack: the memory from `stack_` to `stackEnd_` (`none`: not written), `stackTop_ - stack_`, whether there
is memory, and the capacity to begin with (`kDefaultCapacity`, stringbuffer.h:83). -/
structure Stk where
  mem : List (Option Char) := []
  top : Nat := 0
  live : Bool := false
  init : Nat := 256
  deriving DecidableEq

def Stk.cap (s : Stk) : Nat := s.mem.length

/-- `Resize`, stack.h:199-204, with `realloc`. -/
def Stk.resize (s : Stk) (n : Nat) : Stk :=
  ⟨s.mem.take n ++ List.replicate (n - s.cap) none, s.top, true, s.init⟩

/-- The new capacity, stack.h:183-194. -/
def Stk.grown (s : Stk) (count : Nat) : Nat :=
  max (if s.live then s.cap + (s.cap + 1) / 2 else s.init) (s.top + count)

/-- `Reserve` and `Expand`, stack.h:115-119 and 181-197. -/
def Stk.reserve (s : Stk) (count : Nat) : Stk := if s.top + count > s.cap then s.resize (s.grown count) else s

/-- `PushUnsafe`, stack.h:128-133. The place returned is the old top. -/
def Stk.pushUnsafe (s : Stk) (count : Nat) : Option Stk :=
  if s.top + count ≤ s.cap then some ⟨s.mem, s.top + count, s.live, s.init⟩ else none

/-- `Push`, stack.h:122-125. -/
def Stk.push (s : Stk) (count : Nat) : Option Stk := (s.reserve count).pushUnsafe count

/-- `Pop`, stack.h:136-140. -/
def Stk.pop (s : Stk) (count : Nat) : Option Stk :=
  if s.top ≥ count then some ⟨s.mem, s.top - count, s.live, s.init⟩ else none

/-- `*(stack_ + i) = c`. -/
def Stk.store (s : Stk) (i : Nat) (c : Char) : Option Stk :=
  if i < s.cap then some ⟨s.mem.set i (some c), s.top, s.live, s.init⟩ else none

/-- `*p++ = c` for every character. -/
def Stk.storeAll (s : Stk) (i : Nat) : Str → Option Stk
  | [] => some s
  | c :: l => (s.store i c).bind fun s => s.storeAll (i + 1) l

/-- `Put`, stringbuffer.h:56. -/
def Stk.put (s : Stk) (c : Char) : Option Stk := (s.push 1).bind fun t => t.store s.top c

/-- `PutUnsafe`, stringbuffer.h:57. -/
def Stk.putUnsafe (s : Stk) (c : Char) : Option Stk := (s.pushUnsafe 1).bind fun t => t.store s.top c

/-- A sequence of `PutUnsafe`. -/
def Stk.putAll (s : Stk) : Str → Option Stk
  | [] => some s
  | c :: l => (s.putUnsafe c).bind fun s => s.putAll l

/-- `Clear`, stack.h:98. -/
def Stk.clear (s : Stk) : Stk := ⟨s.mem, 0, s.live, s.init⟩

/-- The characters up to the first NUL; `none`: memory that was not written, or the end of the memory. -/
def cstr : List (Option Char) → Option Str
  | [] => none
  | none :: _ => none
  | some c :: l => if c = '\x00' then some [] else (cstr l).map fun r => c :: r

/-- `GetString`, stringbuffer.h:73-79: the memory it leaves, and the C string a caller sees. -/
def Stk.getString (s : Stk) : Option (Stk × Str) :=
  (s.put '\x00').bind fun t => (t.pop 1).bind fun u => (cstr u.mem).map fun r => (u, r)

/-- `Push(room)`, a function that prints from there on, and `Pop(room - (end - buffer))`, writer.h:480-511. The count is
a `size_t`. -/
def Stk.print (s : Stk) (room : Nat) (o : Option Str) : Option Stk :=
  (s.push room).bind fun t => o.bind fun l => (t.storeAll s.top l).bind fun u => u.pop ((2 ^ 64 + room - l.length) % 2 ^ 64)

/-- The number events, document.h:1799-1803 with the flags of 634-670, and `WriteInt`, `WriteUint`, `WriteInt64`,
`WriteUint64`, writer.h:478-511. -/
def Stk.number (s : Stk) (i : Int) : Option Stk :=
  if -2 ^ 31 ≤ i ∧ i < 2 ^ 31 then s.print 11 (Itoa.i32toa i)
  else if 0 ≤ i ∧ i < 2 ^ 32 then s.print 10 (Itoa.u32toa i.toNat)
  else if -2 ^ 63 ≤ i ∧ i < 2 ^ 63 then s.print 21 (Itoa.i64toa i)
  else s.print 20 (Itoa.u64toa (i % 2 ^ 64).toNat)

/-- `WriteDouble`, writer.h:513-539: nothing for NaN and infinity. -/
def Stk.double (s : Stk) (o : Option Str) : Option Stk :=
  match o with
  | none => some s
  | some l => s.print 25 (some l)

/-- `hexDigits`, writer.h:346. -/
def hexDigits : Str := "0123456789ABCDEF".toList

/-- `escape`, writer.h:347-357; 0 is the NUL character. -/
def escape : Str :=
  "uuuuuuuubtnufruu".toList ++ "uuuuuuuuuuuuuuuu".toList ++
  ['\x00', '\x00', '"'] ++ List.replicate 13 '\x00' ++ List.replicate 32 '\x00' ++
  List.replicate 12 '\x00' ++ ['\\'] ++ List.replicate 3 '\x00' ++ List.replicate 160 '\x00'

/-- What is written for one byte of a string, writer.h:399-413 and encodings.h:699-702. `none`: outside a table. -/
def escaped (c : Char) : Option Str :=
  (escape[c.toNat]?).bind fun e =>
    if e ≠ '\x00' then
      if e = 'u' then
        (hexDigits[c.toNat / 16]?).bind fun h => (hexDigits[c.toNat % 16]?).map fun l => ['\\', e, '0', '0', h, l]
      else some ['\\', e]
    else some [c]

/-- The loop of `WriteString`, writer.h:366-414. -/
def Stk.chars (s : Stk) : Str → Option Stk
  | [] => some s
  | c :: l => (escaped c).bind fun e => (s.putAll e).bind fun s => s.chars l

/-- `WriteString`, writer.h:345-417. The room is `2 + length * 6` of a 32 bit number. -/
def Stk.string (s : Stk) (t : Str) : Option Stk :=
  (((s.reserve ((2 + t.length * 6) % 2 ^ 32)).putUnsafe '"').bind fun s => s.chars t).bind fun s => s.putUnsafe '"'

/-- `PutReserve` and as many `PutUnsafe`, writer.h:264-279. -/
def Stk.word (s : Stk) (l : Str) : Option Stk := (s.reserve l.length).putAll l

/-- A writer: the memory, the levels from the inside out, and `hasRoot_`. -/
structure Wr where
  stk : Stk
  levels : List (Nat × Bool) := []
  root : Bool := false

/-- A separator, writer.h:441-446. -/
def sepTo (s : Stk) (n : Nat) (inArray : Bool) : Option Stk :=
  if n > 0 then (if inArray then s.put ',' else s.put (if n % 2 = 0 then ',' else ':')) else some s

/-- `Prefix`, writer.h:437-455. -/
def Wr.pre (w : Wr) (isStr : Bool) : Option Wr :=
  match w.levels with
  | [] => if w.root then none else some ⟨w.stk, [], true⟩
  | (n, inArray) :: l =>
    (sepTo w.stk n inArray).bind fun s =>
      if !inArray && n % 2 == 0 && !isStr then none else some ⟨s, (n + 1, inArray) :: l, w.root⟩

/-- Write with the memory and keep the rest. -/
def Wr.on (w : Wr) (f : Stk → Option Stk) : Option Wr := (f w.stk).map fun s => ⟨s, w.levels, w.root⟩

/-- `level_stack_.Push`, writer.h:206 and 222. -/
def Wr.push (w : Wr) (inArray : Bool) : Wr := ⟨w.stk, (0, inArray) :: w.levels, w.root⟩

/-- writer.h:214-216 and 228-230. -/
def Wr.pop (w : Wr) (inArray : Bool) : Option Wr :=
  match w.levels with
  | [] => none
  | (_, a) :: l => if a = inArray then some ⟨w.stk, l, w.root⟩ else none

/-- One event. -/
def step (D : Nat → Option Str) (w : Wr) : Ev → Option Wr
  | .null => (w.pre false).bind fun w => w.on fun s => s.word "null".toList
  | .bool true => (w.pre false).bind fun w => w.on fun s => s.word "true".toList
  | .bool false => (w.pre false).bind fun w => w.on fun s => s.word "false".toList
  | .num i => (w.pre false).bind fun w => w.on fun s => s.number i
  | .dbl d => (w.pre false).bind fun w => w.on fun s => s.double (D d)
  | .str t => (w.pre true).bind fun w => w.on fun s => s.string t
  | .startObj => (w.pre false).bind fun w => (w.push false).on fun s => s.put '{'
  | .endObj => (w.pop false).bind fun w => w.on fun s => s.put '}'
  | .startArr => (w.pre false).bind fun w => (w.push true).on fun s => s.put '['
  | .endArr => (w.pop true).bind fun w => w.on fun s => s.put ']'

def run (D : Nat → Option Str) (w : Wr) : List Ev → Option Wr
  | [] => some w
  | e :: l => (step D w e).bind fun w => run D w l

/-- `doc_.Accept(writer)` of a new writer on a buffer. -/
def accept (D : Nat → Option Str) (s : Stk) (j : Json) : Option Stk := (run D ⟨s, [], false⟩ (JsonText.upTo D (JsonText.events j))).map (·.stk)

/-- `IpcMessage::encode`, /repo/cpp/common/src/IpcMessage.cpp:388-398, with the document as it is after 381-386: clear the
buffer, write the document, give the C string. -/
def encode (D : Nat → Option Str) (s : Stk) (j : Json) : Option (Stk × Str) := (accept D s.clear j).bind fun s => s.getString

end Verif.JsonBuffer
