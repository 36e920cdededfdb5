import Verif.Model.GapFill
/-
Model of the gap fill plugin with the arithmetic of C++.
Source: /repo/cpp/frameProcessor/src/GapFillPlugin.cpp: process_frame 41-52, configuration_valid 63-114, insert_gaps 125-198.

Arithmetic of `int` that overflows is undefined (`none`, `ub`). Dimensions of frames are `unsigned long long` and sizes
`size_t`, both modulo 2^64; the conversion of such a number to `int` is modulo 2^32 (as with gcc). Otherwise as
Verif.GapFill.
-/
namespace Verif.GapFill

/-- The result of an operation on `int`. -/
def i32 (n : Int) : Option Int := if -(2 ^ 31) ≤ n ∧ n < 2 ^ 31 then some n else none

/-- Conversion to `size_t` or `unsigned long long`. -/
def u64 (n : Int) : Int := n % 2 ^ 64

/-- Conversion to `int`. -/
def wrap (n : Int) : Int := (n + 2 ^ 31) % 2 ^ 32 - 2 ^ 31

/-- Lines 68, 75, 82-108; the sizes are compared as `size_t`. -/
def gapsFit (g1 g0 : Int) (c : Cfg) : Option Bool :=
  (i32 (g1 + 1)).bind fun a => if u64 a ≠ c.gapsX.length then some false else
    (i32 (g0 + 1)).bind fun b => some (decide (u64 b = c.gapsY.length))

/-- `configuration_valid`, GapFillPlugin.cpp:63-114. All four comparisons of numbers of gaps are those of equality; which one
fails first is only in the message. -/
def configurationValidI (c : Cfg) (dims : List Nat) : Option Bool :=
  match c.grid[0]?, c.chip[0]?, (dims[0]? : Option Nat) with
  | some g0, some c0, some d0 =>
    (i32 (g0 * c0)).bind fun p => if (d0 : Int) ≠ u64 p then some false
    else match c.grid[1]?, c.chip[1]?, (dims[1]? : Option Nat) with
      | some g1, some c1, some d1 =>
        (i32 (g1 * c1)).bind fun q => if (d1 : Int) ≠ u64 q then some false else gapsFit g1 g0 c
      | _, _, _ => none
  | _, _, _ => none

/-- 131-134 and 136-139: the product and `n` gaps one after the other. -/
def lengthI (start : Int) (gaps : List Int) : Nat → Option Int
  | 0 => i32 start
  | n + 1 =>
    match lengthI start gaps n, gaps[n]? with
    | some t, some g => i32 (t + g)
    | _, _ => none

/-- One row of one chip, 161-180. -/
def chipRow (l : Loop) (g offX srcRow destRow : Int) (n : Nat) (out : Buf) : Option (Buf × Int) :=
  (i32 (offX + g)).bind fun offX =>
  (i32 (n * l.chipX)).bind fun col =>
  (i32 (destRow * l.imgX)).bind fun d0 =>
  (i32 (d0 + offX)).bind fun d1 =>
  (i32 (d1 + col)).bind fun d =>
  (copy out (wrap (u64 (u64 d * l.size))) l.src
    (wrap (u64 (u64 (wrap (u64 (u64 (u64 srcRow * l.width) + u64 col))) * l.size))) (u64 (u64 l.chipX * l.size))).map fun out => (out, offX)

/-- The x loop, 159-182. -/
def xLoopI (l : Loop) (gapsX : List Int) (srcRow destRow : Int) (out : Buf) : Nat → Option (Buf × Int)
  | 0 => some (out, 0)
  | n + 1 =>
    match xLoopI l gapsX srcRow destRow out n, gapsX[n]? with
    | some (out, offX), some g => chipRow l g offX srcRow destRow n out
    | _, _ => none

/-- The row loop, 154-183. -/
def rowLoopI (l : Loop) (gapsX : List Int) (gridX : Nat) (chipY yIndex offY : Int) (out : Buf) : Nat → Option Buf
  | 0 => some out
  | n + 1 =>
    match rowLoopI l gapsX gridX chipY yIndex offY out n with
    | some out =>
      (i32 (yIndex * chipY)).bind fun p => (i32 (p + n)).bind fun srcRow => (i32 (srcRow + offY)).bind fun destRow =>
        (xLoopI l gapsX srcRow destRow out gridX).map Prod.fst
    | none => none

/-- The y loop, 150-184. -/
def yLoopI (l : Loop) (gapsX gapsY : List Int) (gridX : Nat) (chipY : Int) (out : Buf) : Nat → Option (Buf × Int)
  | 0 => some (out, 0)
  | n + 1 =>
    match yLoopI l gapsX gapsY gridX chipY out n, gapsY[n]? with
    | some (out, offY), some g =>
      (i32 (offY + g)).bind fun offY => (rowLoopI l gapsX gridX chipY n offY out chipY.toNat).map fun out => (out, offY)
    | _, _ => none

/-- 142-198 with the lengths of the new image. -/
def fillI (c : Cfg) (g0 g1 c0 c1 d1 imgX imgY : Int) (size : Nat) (src : Buf) : Result :=
  match i32 (imgX * imgY) with
  | none => .ub
  | some p =>
    if p < 0 then .ub
    else
      match yLoopI { src := src, width := d1, imgX := imgX, chipX := c1, size := size } c.gapsX c.gapsY g1.toNat c0
          { size := (u64 (p * size)).toNat, data := fun _ => 0 } g0.toNat with
      | some r => .pushed [imgY, imgX] r.1
      | none => .ub

/-- `insert_gaps`, GapFillPlugin.cpp:125-198. -/
def insertGapsI (c : Cfg) (dims : List Nat) (size : Nat) (src : Buf) : Result :=
  match c.grid, c.chip, dims with
  | g0 :: g1 :: _, c0 :: c1 :: _, _ :: d1 :: _ =>
    match lengthI (g1 * c1) c.gapsX (g1 + 1).toNat, lengthI (g0 * c0) c.gapsY (g0 + 1).toNat with
    | some imgX, some imgY => fillI c g0 g1 c0 c1 d1 imgX imgY size src
    | _, _ => .ub
  | _, _, _ => .ub

/-- `process_frame`, GapFillPlugin.cpp:41-52. -/
def processFrameI (c : Cfg) (dims : List Nat) (size : Nat) (src : Buf) : Result :=
  match configurationValidI c dims with
  | none => .ub
  | some false => .dropped
  | some true => insertGapsI c dims size src

end Verif.GapFill
