import Verif.Model.Grisu
import Verif.Model.JsonText
/-
Model of how a number that is not an integer of 64 bits is read from JSON.
Source: /repo/cpp/common/include/rapidjson/reader.h: ParseNumber 1133-1388 (without kParseFullPrecisionFlag, as odin-data
calls it); /repo/cpp/common/include/rapidjson/internal/strtod.h: FastPath 26-33, StrtodNormalPrecision 35-44;
/repo/cpp/common/include/rapidjson/internal/pow10.h: Pow10 28-52.

A double that is not negative is given by its bits, so that doubles are ordered as their bits are. Arithmetic is that of
IEEE 754 in double precision, rounded to nearest, ties to even; operations on infinities give infinity (0 * inf and inf / inf
do not occur). Literals are rounded in the same way. `int` arithmetic that overflows (other than `expFrac` and
`significandDigit`, which needs a fraction of 2^31 digits) and an access outside of the table of powers are `ub`.
-/
namespace Verif.ReadDouble
open Verif.Ipc (Str)
open Verif.JsonText (isDigit intPart)

/-- The bits of infinity. -/
def inf : Nat := 2047 * 2 ^ 52

/-- The value of the bits of a double that is neither negative nor infinite. -/
def val (b : Nat) : Rat := ((Grisu.ofBits b).f : Rat) * 2 ^ (Grisu.ofBits b).e

/-- The exponent of the largest power of two that is not above a positive number. -/
def ilog (q : Rat) : Int :=
  let l : Int := (Nat.log2 q.num.natAbs : Int) - (Nat.log2 q.den : Int)
  if (2 : Rat) ^ l ≤ q then l else l - 1

/-- The nearest integer, ties to even. -/
def halfEven (q : Rat) : Nat :=
  let n := q.num.natAbs / q.den
  let r := q.num.natAbs % q.den
  if 2 * r < q.den ∨ (2 * r = q.den ∧ n % 2 = 0) then n else n + 1

/-- The exponent of the last bit of the double for a number that is not negative. -/
def expo (q : Rat) : Int := max (-1074) (ilog q - 52)

/-- The bits of the nearest double, of a number that is not negative. -/
def rnd (q : Rat) : Nat := if q = 0 then 0 else min inf ((expo q + 1074).toNat * 2 ^ 52 + halfEven (q * 2 ^ (-expo q)))

def add (a b : Nat) : Nat := if a ≥ inf ∨ b ≥ inf then inf else rnd (val a + val b)
def mul (a b : Nat) : Nat := if a ≥ inf ∨ b ≥ inf then inf else rnd (val a * val b)
def div (a b : Nat) : Nat := if a ≥ inf ∨ b ≥ inf then inf else rnd (val a / val b)

/-- A conversion from an integer, or an integral literal. -/
def ofNat (n : Nat) : Nat := rnd (n : Rat)

inductive R (α : Type) where
  | ok (a : α)
  | tooBig
  | ub
  deriving DecidableEq, Repr

def R.bind (r : R α) (f : α → R β) : R β :=
  match r with
  | .ok a => f a
  | .tooBig => .tooBig
  | .ub => .ub

/-- `d * 10 + digit`, reader.h:1236 and 1276. -/
def times10 (d : Nat) (c : Char) : Nat := add (mul d (ofNat 10)) (ofNat (c.toNat - 48))

/-- `1.7976931348623157e307`. -/
def bigLimit : Nat := ofNat (17976931348623157 * 10 ^ 291)

/-- The loop for big integers, reader.h:1232-1238. -/
def bigLoop (d : Nat) : Str → R (Nat × Str)
  | [] => .ok (d, [])
  | c :: s => if isDigit c then (if d ≥ bigLimit then .tooBig else bigLoop (times10 d c) s) else .ok (d, c :: s)

/-- The first loop for a fraction, reader.h:1255-1264: `i64`, `expFrac`, `significandDigit`. -/
def fracInt (i : Nat) (ef : Int) (sig : Nat) : Str → Nat × Int × Nat × Str
  | [] => (i, ef, sig, [])
  | c :: s =>
    if isDigit c then
      if i > 2 ^ 53 - 1 then (i, ef, sig, c :: s)
      else fracInt (i * 10 + (c.toNat - 48)) (ef - 1) (if i * 10 + (c.toNat - 48) ≠ 0 then sig + 1 else sig) s
    else (i, ef, sig, c :: s)

/-- The second loop for a fraction, reader.h:1274-1283: `d` and `expFrac`. -/
def fracDbl (d : Nat) (ef : Int) (sig : Nat) : Str → Nat × Int × Str
  | [] => (d, ef, [])
  | c :: s =>
    if isDigit c then
      if sig < 17 then fracDbl (times10 d c) (ef - 1) (if times10 d c > 0 then sig + 1 else sig) s
      else fracDbl d ef sig s
    else (d, ef, c :: s)

/-- What follows the integer part, reader.h:1240-1286: `d` if there is one, or the integer; `expFrac`. -/
def fracPart (big : Bool) (i d sig : Nat) : Str → Nat × Int × Str
  | '.' :: s =>
    if big then fracDbl d 0 sig s
    else
      let r := fracInt i 0 sig s
      fracDbl (ofNat r.1) r.2.1 r.2.2.1 r.2.2.2
  | s => (if big then d else ofNat i, 0, s)

/-- The loop over the digits of a negative exponent, reader.h:1305-1311. -/
def expNeg (e : Nat) : Str → Nat
  | [] => e
  | c :: s => if isDigit c then (if e * 10 + (c.toNat - 48) ≥ 214748364 then e * 10 + (c.toNat - 48) else expNeg (e * 10 + (c.toNat - 48)) s) else e

/-- The loop over the digits of an exponent that is not negative, reader.h:1315-1319. -/
def expPos (maxExp : Int) (e : Nat) : Str → R Nat
  | [] => .ok e
  | c :: s => if isDigit c then (if e * 10 + (c.toNat - 48) ≥ 2 ^ 31 then .ub else if ((e * 10 + (c.toNat - 48) : Nat) : Int) > maxExp then .tooBig else expPos maxExp (e * 10 + (c.toNat - 48)) s) else .ok e

/-- reader.h:1302-1326, behind the sign. -/
def expDigits (minus : Bool) (ef : Int) : Str → R Int
  | [] => .ok 0
  | c :: s => if minus then .ok (-(expNeg (c.toNat - 48) s : Int)) else (expPos (308 - ef) (c.toNat - 48) s).bind fun e => .ok (e : Int)

/-- reader.h:1290-1327. -/
def expPart (ef : Int) : Str → R Int
  | c :: '+' :: s => if c = 'e' ∨ c = 'E' then expDigits false ef s else .ok 0
  | c :: '-' :: s => if c = 'e' ∨ c = 'E' then expDigits true ef s else .ok 0
  | c :: s => if c = 'e' ∨ c = 'E' then expDigits false ef s else .ok 0
  | [] => .ok 0

/-- `Pow10`, pow10.h:28-52: the entries are 1e+0 to 1e+308. -/
def pow10 (n : Int) : R Nat := if 0 ≤ n ∧ n ≤ 308 then .ok (ofNat (10 ^ n.toNat)) else .ub

/-- `FastPath`, strtod.h:26-33. -/
def fastPath (d : Nat) (p : Int) : R Nat :=
  if p < -308 then .ok 0
  else if p ≥ 0 then (pow10 p).bind fun t => .ok (mul d t)
  else (pow10 (-p)).bind fun t => .ok (div d t)

/-- `StrtodNormalPrecision`, strtod.h:35-44. -/
def strtod (d : Nat) (p : Int) : R Nat :=
  if p < -308 then (fastPath d (-308)).bind fun d => fastPath d (p + 308) else fastPath d p

/-- `exp + expFrac`, reader.h:1361. -/
def sum (exp ef : Int) : R Int := if -2 ^ 31 ≤ exp + ef ∧ exp + ef < 2 ^ 31 then .ok (exp + ef) else .ub

/-- `minus ? -d : d`, reader.h:1367. -/
def signed (minus : Bool) (d : Nat) : Nat := if minus then d + 2 ^ 63 else d

/-- The part of `ParseNumber` behind the integer part, for doubles: `i` is the integer, `sig` is `significandDigit`, `big`
says that the integer part goes on. -/
def rest (minus big : Bool) (i sig : Nat) (s : Str) : R Nat :=
  (if big then bigLoop (ofNat i) s else .ok (0, s)).bind fun b =>
    let f := fracPart big i b.1 sig b.2
    (expPart f.2.1 f.2.2).bind fun exp => (sum exp f.2.1).bind fun p => (strtod f.1 p).bind fun d => .ok (signed minus d)

/-- `ParseNumber`, reader.h:1133-1388, of the text of a number that is read as a double: its bits. -/
def readDouble (s : Str) : R Nat :=
  let minus := s.head? == some '-'
  let t := if minus then s.tail else s
  match intPart minus t with
  | none => .tooBig
  | some (i, big, s1) => rest minus big i (t.length - s1.length - 1) s1

end Verif.ReadDouble
