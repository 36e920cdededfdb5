/-
Model of which packets the simulator leaves out, and of its pauses between packets.
Source: /repo/cpp/frameSimulator/src/FrameSimulatorPluginUDP.cpp: replay_frames 165-200; /repo/cpp/frameSimulator/include/FrameSimulatorOptionsUDP.h.

The fraction is a quotient of integers; `(double) rand() / RAND_MAX` is taken to be exact, while the code rounds it to a double. `RAND_MAX` is that of glibc, and `rand`
gives one of the numbers from 0 to `RAND_MAX`; `srand` is not called in /repo. Sending, which may fail, is one event.
-/
namespace Verif.SimDrop

/-- `RAND_MAX`. -/
def randMax : Nat := 2147483647

/-- Line 169: `((double) rand() / RAND_MAX) < drop_frac_.get()`, with the fraction `num / den`. -/
def drops (num : Int) (den r : Nat) : Bool := decide ((r : Int) * den < num * randMax)

/-- Lines 168-173; without a fraction there is no draw. -/
def dropped (frac : Option (Int × Nat)) (r : Nat) : Bool := match frac with
  | some f => drops f.1 f.2 r
  | none => false

/-- What happens. -/
inductive Ev
  | drop (p : Nat)
  | send (p : Nat)
  | pause (sent : Nat)
deriving DecidableEq, Repr

/-- Lines 189-195, after `sent` packets; `none`: the remainder of a division by zero, undefined. -/
def pauses (gap : Option Int) (sent : Nat) : Option (List Ev) := match gap with
  | none => some []
  | some g => if g = 0 then none else some (if (sent : Int) % g = 0 then [.pause sent] else [])

/-- The packets of a frame from number `p` on, lines 165-197: a draw for each of them; `sent` of them have been sent. -/
def packets (frac : Option (Int × Nat)) (listed : Nat → Bool) (gap : Option Int) : Nat → Nat → List Nat → Option (List Ev)
  | _, _, [] => some []
  | p, sent, r :: l =>
    if dropped frac r || listed p then (packets frac listed gap (p + 1) sent l).map (.drop p :: ·)
    else (pauses gap (sent + 1)).bind fun e => (packets frac listed gap (p + 1) (sent + 1) l).map fun t => .send p :: (e ++ t)

/-- A frame. -/
def frame (frac : Option (Int × Nat)) (listed : Nat → Bool) (gap : Option Int) (draws : List Nat) : Option (List Ev) := packets frac listed gap 0 0 draws

end Verif.SimDrop
