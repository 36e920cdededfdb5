/-!
Measuring how long calls take.

* cpp/common/include/gettime.h: `gettime` 20-40, `elapsed_us` 51-57
* cpp/frameProcessor/src/CallDuration.cpp: `update` 17-27, `reset` 32-36; CallDuration.h 19-33 (no constructor)
* cpp/frameProcessor/src/FrameProcessorPlugin.cpp: `callback` 356-376, `add_performance_stats` 224-229

Doubles hold integers here: results of one operation are rounded to 53 bits, to nearest, ties to even. The quotient by 1000 is
not rounded: below 2^53 its distance to the next integer, 1/1000 at least, is more than the rounding error, so the conversion to
an integer gives the same.
-/
namespace Verif.Times

/-! ## `elapsed_us` -/

/-- `struct timespec`. -/
structure Spec where
  sec : Nat
  nsec : Nat
deriving DecidableEq, Repr

/-- Round to 53 bits. -/
def rnd (n : Nat) : Nat :=
  let e := Nat.log2 n - 52
  let q := n / 2 ^ e
  let r := n % 2 ^ e
  if 2 * r < 2 ^ e ∨ (2 * r = 2 ^ e ∧ q % 2 = 0) then q * 2 ^ e else (q + 1) * 2 ^ e

/-- `((double) t.tv_sec * 1000000000) + t.tv_nsec`. -/
def ns (t : Spec) : Nat := rnd (rnd (t.sec * 1000000000) + t.nsec)

def rndInt (i : Int) : Int := if 0 ≤ i then rnd i.toNat else - (rnd (-i).toNat : Int)

/-- `elapsed_us`: `none` is the conversion of a value an `unsigned int` cannot hold, which is undefined. -/
def elapsedUs (start stop : Spec) : Option Nat :=
  let us := (rndInt ((ns stop : Int) - ns start)).tdiv 1000
  if us < 0 ∨ 2 ^ 32 ≤ us then none else some us.toNat

/-! ## `CallDuration` -/

structure Dur where
  last : Nat
  max : Nat
  mean : Nat
deriving DecidableEq, Repr

/-- `(mean_ + (double) duration) / 2` is exact and converted to `unsigned int`. -/
def update (s : Dur) (d : Nat) : Dur :=
  { last := d, max := if d > s.max then d else s.max, mean := if s.mean = 0 then d else (s.mean + d) / 2 }

def zero : Dur := { last := 0, max := 0, mean := 0 }

inductive Op
  | call (us : Nat)      -- a call has taken that long
  | reset                -- `reset_statistics`
deriving DecidableEq, Repr

def step (s : Dur) : Op → Dur
  | .call d => update s d
  | .reset => zero

/-- From construction: the members are not initialised, so `s` is anything. -/
def run (s : Dur) (l : List Op) : Dur := l.foldl step s

end Verif.Times
