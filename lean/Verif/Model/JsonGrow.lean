import Verif.Model.PoolAllocator

/-
Model of how arrays, objects and strings of a JSON document get their memory and grow in it.
Source: /repo/cpp/common/include/rapidjson/document.h: AddMember 1186-1209, Reserve 1522-1529, PushBack 1541-1547, the default capacities 1842-1843,
SetArrayRaw 1934-1944, SetObjectRaw 1947-1957, SetStringRaw 1967-1983; the pool is that of `Verif.Model.PoolAllocator`.

The headers of arrays and objects (pointer, size, capacity) are a list beside the memory; their bytes are the subject of `Verif.Model.JsonValue`.
A write through a null pointer is the outcome `none`.
-/
namespace Verif.JsonGrow

open Verif.PoolAllocator

inductive Kind where
  | text | array | object
  deriving DecidableEq, Repr

/-- Bytes of one element: a character, a value, or a member with name and value. -/
def width : Kind → Nat
  | .text => 1
  | .array => 16
  | .object => 32

/-- The header of a string, an array or an object. -/
structure Seq where
  kind : Kind
  ptr : Option Nat
  size : Nat
  cap : Nat
  deriving DecidableEq, Repr

structure Doc where
  pool : Pool
  mem : Mem
  seqs : List Seq

/-- Bytes written one after the other. -/
def store (m : Mem) (x : Nat) (bs : List Nat) : Mem := fun y => if x ≤ y ∧ y < x + bs.length then bs.getD (y - x) 0 else m y

/-- The next capacity, document.h:1192-1198 and 1544; the numbers have 32 bits. -/
def larger (cap : Nat) : Nat := if cap = 0 then 16 else (cap + (cap + 1) % 2 ^ 32 / 2) % 2 ^ 32

/-- Reserve, document.h:1522-1529. -/
def reserve (p : Pool) (m : Mem) (s : Seq) (n : Nat) (lib : Nat → Option Nat) : Pool × Mem × Seq :=
  if n > s.cap then
    ((realloc p m s.ptr (s.cap * width s.kind) (n * width s.kind) lib).1, (realloc p m s.ptr (s.cap * width s.kind) (n * width s.kind) lib).2.1,
      ⟨s.kind, (realloc p m s.ptr (s.cap * width s.kind) (n * width s.kind) lib).2.2, s.size, n⟩)
  else (p, m, s)

/-- The first part of PushBack, document.h:1543-1544. -/
def roomArray (p : Pool) (m : Mem) (s : Seq) (lib : Nat → Option Nat) : Pool × Mem × Seq :=
  if s.size ≥ s.cap then reserve p m s (larger s.cap) lib else (p, m, s)

/-- The first part of AddMember, document.h:1190-1201. -/
def roomObject (p : Pool) (m : Mem) (s : Seq) (lib : Nat → Option Nat) : Pool × Mem × Seq :=
  if s.size ≥ s.cap then
    if s.cap = 0 then ((malloc p (larger s.cap * width s.kind) lib).1, m, ⟨s.kind, (malloc p (larger s.cap * width s.kind) lib).2, s.size, larger s.cap⟩)
    else ((realloc p m s.ptr (s.cap * width s.kind) (larger s.cap * width s.kind) lib).1,
      (realloc p m s.ptr (s.cap * width s.kind) (larger s.cap * width s.kind) lib).2.1,
      ⟨s.kind, (realloc p m s.ptr (s.cap * width s.kind) (larger s.cap * width s.kind) lib).2.2, s.size, larger s.cap⟩)
  else (p, m, s)

def room (p : Pool) (m : Mem) (s : Seq) (lib : Nat → Option Nat) : Pool × Mem × Seq :=
  match s.kind with
  | .object => roomObject p m s lib
  | _ => roomArray p m s lib

/-- The last part of PushBack and AddMember, document.h:1202-1206 and 1545. -/
def put (d : Doc) (i : Nat) (v : List Nat) (r : Pool × Mem × Seq) : Option Doc :=
  match r.2.2.ptr with
  | none => none
  | some q => some ⟨r.1, store r.2.1 (q + r.2.2.size * width r.2.2.kind) v, d.seqs.set i ⟨r.2.2.kind, some q, r.2.2.size + 1, r.2.2.cap⟩⟩

/-- What a document does. -/
inductive Act where
  | fresh (k : Kind) (vs : List (List Nat))
  | push (i : Nat) (v : List Nat)

/-- SetArrayRaw, SetObjectRaw and SetStringRaw with elements, document.h:1934-1983. -/
def fresh (d : Doc) (k : Kind) (vs : List (List Nat)) (lib : Nat → Option Nat) : Option Doc :=
  match vs with
  | [] => some ⟨d.pool, d.mem, d.seqs ++ [⟨k, none, 0, 0⟩]⟩
  | v :: vs =>
    match (malloc d.pool ((v :: vs).length * width k) lib).2 with
    | none => none
    | some q => some ⟨(malloc d.pool ((v :: vs).length * width k) lib).1, store d.mem q (v :: vs).flatten,
        d.seqs ++ [⟨k, some q, (v :: vs).length, (v :: vs).length⟩]⟩

/-- One act; nothing happens for an index that is not there. -/
def act (d : Doc) (lib : Nat → Option Nat) : Act → Option Doc
  | .fresh k vs => fresh d k vs lib
  | .push i v =>
    match d.seqs[i]? with
    | none => some d
    | some s => put d i v (room d.pool d.mem s lib)

/-- A new document. -/
def Doc.new (m : Mem) : Doc := ⟨Pool.new, m, []⟩

end Verif.JsonGrow
