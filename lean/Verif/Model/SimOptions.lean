import Verif.Model.IpcMessage

/-
Model of what the simulator takes from its command line.
Source: /repo/cpp/frameSimulator/include/FrameSimulatorOption.h: is_specified 47-49, get_val 51-61, add_option_to 63-71; FrameSimulatorOptions.h:12-14,
FrameSimulatorOptionsUDP.h, FrameSimulatorOptionsDummyUDP.h; /repo/cpp/frameSimulator/src/FrameSimulatorApp.cpp: parse_arguments 157-161 and 203-206, main 221-233;
FrameSimulatorPlugin.cpp: populate_options 18-26, setup 36-51; FrameSimulatorPluginUDP.cpp: setup 37-107, populate_options 257-267;
DummyUDPFrameSimulatorPlugin.cpp: constructor 22-39, populate_options 41-48, setup 50-78.

boost::program_options is taken as follows. `run` refuses a line with an unknown option. `store` goes through the options in order; for each it makes an entry in
the map, if there is none, and then converts the value; a value that cannot be converted leaves the entry empty, and an option given before is refused; both throw,
and what was stored before stays. The default values are stored last. `as` of an entry that is empty or missing throws. Names are taken to be written in full.
Values are texts: `good` says which ones can be converted. What `setup` does with the values (addresses, sockets, the file) is taken to succeed here.
-/
namespace Verif.SimOptions
open Verif.Ipc (Str)

/-- The options of the plugins. -/
inductive Name
  | ports | frames | interval | destIp | pcapFile | packetGap | dropFraction | dropPackets | width | height | packetLen
deriving DecidableEq, Repr

/-- `variables_map`: no entry, an empty one, or a value. -/
abbrev Vm := Name → Option (Option Str)

/-- Assignment. -/
def put {α : Type} (m : Name → α) (n : Name) (v : α) : Name → α := fun k => if k = n then v else m k

/-- `store` of one option. The flag is false if it throws. -/
def storeOne (good : Name → Str → Bool) (m : Vm) (o : Name × Str) : Vm × Bool := match m o.1 with
  | some (some _) => (m, false)
  | _ => if good o.1 o.2 then (put m o.1 (some (some o.2)), true) else (put m o.1 (some none), false)

/-- `store` of the options in order, until one throws. -/
def store (good : Name → Str → Bool) : Vm → List (Name × Str) → Vm × Bool
  | m, [] => (m, true)
  | m, o :: l => match storeOne good m o with
    | (m', true) => store good m' l
    | r => r

/-- The default values known to the library, FrameSimulatorOptions.h:12-14. -/
def default : Name → Option Str
  | .ports => some "9999".toList
  | .frames => some "1000".toList
  | .interval => some "0.02".toList
  | _ => none

/-- Entries are made for options with a default value that have none. -/
def defaults (m : Vm) : Vm := fun n => match m n with
  | some x => some x
  | none => (default n).map some

/-- FrameSimulatorApp.cpp:157-161: the map in the end, whether or not there was an exception, which is caught at 203-206. `none` in the line: an unknown option. -/
def parse (good : Name → Str → Bool) (l : List (Option Name × Str)) : Vm :=
  if l.any (fun o => o.1.isNone) then fun _ => none
  else match store good (fun _ => none) (l.filterMap (fun o => o.1.map (fun n => (n, o.2)))) with
    | (m, true) => defaults m
    | (m, false) => m

/-- What the simulation is done with. -/
abbrev Settings := Name → Option Str

/-- `get_val` with an optional value, FrameSimulatorOption.h:55-61; `d`: what it is if there is no entry. `none`: an exception. -/
def optional (m : Vm) (n : Name) (d : Option Str) (s : Settings) : Option Settings := match m n with
  | none => some (put s n d)
  | some none => none
  | some (some v) => some (put s n (some v))

/-- `get_val`, FrameSimulatorOption.h:51-53. -/
def required (m : Vm) (n : Name) (s : Settings) : Option Settings := match m n with
  | some (some v) => some (put s n (some v))
  | _ => none

/-- DummyUDPFrameSimulatorPlugin.cpp:59-70, and the constructor 24-26. -/
def ownPart (m : Vm) : Option Settings :=
  (optional m .width (some "1400".toList) (fun _ => none)).bind fun s =>
  (optional m .height (some "1024".toList) s).bind fun s => optional m .packetLen (some "8000".toList) s

/-- FrameSimulatorPlugin.cpp:41-49; the result is not used, FrameSimulatorPluginUDP.cpp:40. -/
def basePart (m : Vm) (s : Settings) : Option Settings :=
  if m .ports = none then some s else (optional m .frames (default .frames) s).bind (optional m .interval (default .interval))

/-- FrameSimulatorPluginUDP.cpp:51-93, behind the test of the address. -/
def udpPart (m : Vm) (s : Settings) : Option Settings :=
  (optional m .packetGap none s).bind fun s => (optional m .dropFraction none s).bind fun s => (optional m .dropPackets none s).bind fun s =>
  (required m .destIp s).bind fun s => (required m .ports s).bind fun s => optional m .pcapFile none s

/-- How `setup` ends. An exception ends the program, main 231. -/
inductive Setup
  | threw
  | notReady
  | ready (s : Settings)

/-- `setup`, DummyUDPFrameSimulatorPlugin.cpp:50-78; with `ready` the frames are sent. -/
def setup (m : Vm) : Setup := match (ownPart m).bind (basePart m) with
  | none => .threw
  | some s => if m .destIp = none then .notReady else match udpPart m s with
    | none => .threw
    | some s => .ready s

/-- From the command line to the simulation. -/
def simulate (good : Name → Str → Bool) (l : List (Option Name × Str)) : Setup := setup (parse good l)

end Verif.SimOptions
