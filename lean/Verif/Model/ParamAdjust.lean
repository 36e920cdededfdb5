import Verif.Model.StdMap
/-
Model of the parameter and the offset adjustment plugins.
Source: /repo/cpp/frameProcessor/src/ParameterAdjustmentPlugin.cpp: process_frame 38-80, configure 91-136;
OffsetAdjustmentPlugin.cpp: process_frame 40-44, configure 55-71; FrameMetaData.h 43-83.

A frame parameter (`boost::any`) is a `uint64_t`, or of another type. The splitting of parameter names at `/`
in messages is not modelled here.
-/
namespace Verif.ParamAdjust
open Verif.StdMap

inductive Value
  | u64 (n : Nat)
  | other (tag : Nat)
deriving DecidableEq, Repr

structure Frame where
  number : Int                     -- long long
  offset : Int := 0                -- int64_t
  params : Map Value := []
deriving DecidableEq, Repr

structure State where
  adjustments : Map Int := []      -- parameter_adjustments_
  inputs : Map String := []        -- parameter_inputs_
deriving DecidableEq, Repr

/-- `int64_t` range. -/
def I64 (i : Int) : Prop := -(2 ^ 63) ≤ i ∧ i < 2 ^ 63
instance (i : Int) : Decidable (I64 i) := by unfold I64; infer_instance

/-- Conversion to `uint64_t`. -/
def toU64 (i : Int) : Nat := (i % 2 ^ 64).toNat

/-- Errors reported with `set_error`. -/
inductive Err
  | noInput (input : String)
  | badInput (name : String)
deriving DecidableEq, Repr

/-- Lines 48-49: the input parameter, "" if the frame number is to be used. -/
def State.input (s : State) (name : String) : String := (find s.inputs name).getD ""

/-- One pass of the loop, lines 46-75. `none`: signed overflow, undefined. -/
def adjust (s : State) (number : Int) (name : String) (adj : Int) (p : Map Value × List Err) :
    Option (Map Value × List Err) :=
  if s.input name = "" then
    if I64 (number + adj) then some (set p.1 name (.u64 (toU64 (number + adj))), p.2) else none
  else match find p.1 (s.input name) with
    | none => some (p.1, p.2 ++ [.noInput (s.input name)])
    | some (.u64 v) => some (set p.1 name (.u64 (toU64 (v + adj))), p.2)
    | some (.other _) => some (p.1, p.2 ++ [.badInput name])

/-- The loop over the map. -/
def adjustAll (s : State) (number : Int) : Map Int → Map Value × List Err → Option (Map Value × List Err)
  | [], p => some p
  | (name, adj) :: m, p => (adjust s number name adj p).bind (adjustAll s number m)

/-- `process_frame`: the frame that is pushed, and the errors. -/
def processFrame (s : State) (f : Frame) : Option (Frame × List Err) :=
  (adjustAll s f.number s.adjustments (f.params, [])).map (fun r => ({ f with params := r.1 }, r.2))

/-- One entry of the message. `none` in the first: missing or of a wrong type. -/
structure Entry where
  name : String
  adjustment : Option Int
  input : Option (Option String) := none
deriving DecidableEq, Repr

/-- The loop of `configure`, lines 101-121; false: an exception, the rest is not applied. -/
def configureAll (s : State) : List Entry → State × Bool
  | [] => (s, true)
  | e :: es =>
    match e.adjustment with
    | none => (s, false)
    | some a =>
      match e.input with
      | none => configureAll { adjustments := set s.adjustments e.name a, inputs := set s.inputs e.name "" } es
      | some none => ({ s with adjustments := set s.adjustments e.name a }, false)
      | some (some i) =>
        configureAll { adjustments := set s.adjustments e.name a, inputs := set s.inputs e.name i } es

/-- `configure`, lines 91-136. -/
def configure (s : State) (es : List Entry) : State × Bool :=
  if es = [] then ({}, true) else configureAll s es

/-- `OffsetAdjustmentPlugin::process_frame`. -/
def offsetFrame (adj : Int) (f : Frame) : Option Frame :=
  if I64 (f.offset + adj) then some { f with offset := f.offset + adj } else none

end Verif.ParamAdjust
