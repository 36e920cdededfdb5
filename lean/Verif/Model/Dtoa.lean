import Verif.Model.Itoa
/-
Model of how the digits of a floating point number become its text.
Source: /repo/cpp/common/include/rapidjson/internal/dtoa.h: WriteExponent 126-148, Prettify 150-214, dtoa 216-237.

The digits and the power of ten come from Grisu2 (Verif.Grisu). A buffer is a function from positions to characters,
with one more than the highest position written. `int` does not overflow: lengths and exponents are small.
-/
namespace Verif.Dtoa
open Verif.Itoa (Str lut char0)

structure Buf where
  at' : Nat → Char
  hi : Nat

/-- `buffer[i] = c`. -/
def Buf.set (b : Buf) (i : Nat) (c : Char) : Buf := ⟨fun j => if j = i then c else b.at' j, max b.hi (i + 1)⟩

/-- `memmove(&buffer[dst], &buffer[src], n)`. -/
def Buf.move (b : Buf) (dst src n : Nat) : Buf :=
  ⟨fun j => if dst ≤ j ∧ j < dst + n then b.at' (j - dst + src) else b.at' j, max b.hi (dst + n)⟩

/-- `for (int i = start; i < start + n; i++) buffer[i] = '0';`. -/
def Buf.zeros (b : Buf) (start : Nat) : Nat → Buf
  | 0 => b
  | n + 1 => (b.set start '0').zeros (start + 1) n

/-- The characters up to a position. -/
def Buf.text (b : Buf) (n : Nat) : Str := (List.range n).map b.at'

/-- A buffer that begins with a text; behind it is what was there before. -/
def Buf.of (s : Str) (old : Nat → Char) : Buf := ⟨fun j => (s[j]?).getD (old j), s.length⟩

/-- `d[0]` and `d[1]` at a position of the table of digits (the position is below 200 for `n < 100`). -/
def pair (n : Nat) : Char × Char := ((lut[n * 2]?).getD '?', (lut[n * 2 + 1]?).getD '?')

/-- The digits of an exponent, dtoa.h:132-145. -/
def expDigits (b : Buf) (i n : Nat) : Buf × Nat :=
  if n ≥ 100 then
    (((b.set i (char0 (n / 100))).set (i + 1) (pair (n % 100)).1).set (i + 2) (pair (n % 100)).2, i + 3)
  else if n ≥ 10 then ((b.set i (pair n).1).set (i + 1) (pair n).2, i + 2)
  else (b.set i (char0 n), i + 1)

/-- `WriteExponent`, dtoa.h:126-148. -/
def writeExponent (b : Buf) (i : Nat) (k : Int) : Buf × Nat :=
  if k < 0 then expDigits (b.set i '-') (i + 1) (-k).toNat else expDigits b i k.toNat

/-- The loops that leave out zeros at the end, dtoa.h:168-171 and 187-190: from position `i` down to, not including,
`stop`. -/
def lastDigit (b : Buf) (stop : Nat) : Nat → Nat
  | 0 => stop + 1
  | i + 1 => if i + 1 > stop then (if b.at' (i + 1) ≠ '0' then i + 2 else lastDigit b stop i) else stop + 1

/-- `Prettify`, dtoa.h:150-214: the buffer and the position behind the text. -/
def prettify (b : Buf) (length : Nat) (k max : Int) : Buf × Nat :=
  let kk := (length : Int) + k
  if 0 ≤ k ∧ kk ≤ 21 then
    (((b.zeros length k.toNat).set kk.toNat '.').set (kk.toNat + 1) '0', kk.toNat + 2)
  else if 0 < kk ∧ kk ≤ 21 then
    let b := (b.move (kk.toNat + 1) kk.toNat (length - kk.toNat)).set kk.toNat '.'
    if 0 > k + max then (b, lastDigit b (kk.toNat + 1) (kk + max).toNat) else (b, length + 1)
  else if -6 < kk ∧ kk ≤ 0 then
    let offset := (2 - kk).toNat
    let b := (((b.move offset 0 length).set 0 '0').set 1 '.').zeros 2 (offset - 2)
    if (length : Int) - kk > max then (b, lastDigit b 2 (max + 1).toNat) else (b, length + offset)
  else if kk < -max then (((b.set 0 '0').set 1 '.').set 2 '0', 3)
  else if length = 1 then writeExponent (b.set 1 'e') 2 (kk - 1)
  else writeExponent (((b.move 2 1 (length - 1)).set 1 '.').set (length + 1) 'e') (length + 2) (kk - 1)

/-- `kDefaultMaxDecimalPlaces`, writer.h:91. -/
def places : Int := 324

/-- `dtoa`, dtoa.h:216-237, for a number with a sign and, unless it is zero, the digits and the power of ten that Grisu2
gives: the text, and the number of characters of the buffer that were used. -/
def dtoa (neg : Bool) (v : Option (Str × Int)) (old : Nat → Char) : Str × Nat :=
  match v with
  | none => if neg then ("-0.0".toList, 4) else ("0.0".toList, 3)
  | some (ds, k) =>
    let r := prettify (.of ds old) ds.length k places
    if neg then ('-' :: r.1.text r.2, r.1.hi + 1) else (r.1.text r.2, r.1.hi)

end Verif.Dtoa
