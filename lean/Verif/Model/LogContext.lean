import Verif.Model.IpcMessage

/-
Model of what is known of the origin of a line of the log.
Source: /repo/cpp/common/src/logging.cpp: configure_logging_mdc 37-65; its calls in FrameReceiverApp.cpp:51 (main, after app_path at 322), FrameReceiverRxThread.cpp:110-116,
FrameProcessorApp.cpp:55 (main, after app_path at 285), FrameProcessorController.cpp:71 and 1020-1025, FrameProcessorPlugin.cpp:22,
IFrameCallback.cpp:114-117, WatchdogTimer.cpp:91-92 and FileWriterPlugin.cpp:916-918; none in /repo/cpp/frameSimulator.

The context of log4cxx belongs to a thread, and that of a new thread is empty. A thread of Linux has the name of the thread that made it until it is
given another one, which is nowhere done in /repo. HOST_NAME_MAX is 64. The patterns of the lines are in the configuration of the log, not in /repo/cpp.
-/
namespace Verif.LogContext
open Verif.Ipc (Str)

/-- `strrchr`, logging.cpp:47: the text from the last `c` on. -/
def rchr (c : Char) : Str → Option Str
  | [] => none
  | x :: l => match rchr c l with
    | some r => some r
    | none => if x = c then some (x :: l) else none

/-- "app", lines 47-52. -/
def app (path : Str) : Str := match rchr '/' path with
  | some r => r.drop 1
  | none => path

/-- "host", lines 38-41: `gethostname` copies what fits, and the last character is replaced by NUL. -/
def host (name : Str) : Str := name.take (64 - 1)

/-- The context of a thread. -/
structure Ctx where
  host : Str
  pid : Nat
  app : Str
  thread : Str
  user : Option Str
deriving DecidableEq, Repr

/-- The machine and the process. -/
structure Env where
  hostname : Str
  pid : Nat
  path : Str                  -- `argv[0]`
  comm : Str                  -- name of the first thread, given by the system
  user : Option Str           -- `getpwuid`
deriving DecidableEq, Repr

/-- A thread: its name and its context. -/
structure Thread where
  name : Str
  ctx : Option Ctx := none
deriving DecidableEq, Repr

/-- A process: its threads, and its log. -/
structure Proc where
  threads : List Thread
  log : List (Nat × Option Ctx) := []
deriving DecidableEq, Repr

/-- What a thread does. -/
inductive Op
  | spawn (i : Nat)
  | configure (i : Nat)
  | write (i : Nat)
deriving DecidableEq, Repr

/-- The user stays if there is none to put, lines 60-64. -/
def user (e : Env) (old : Option Ctx) : Option Str := match e.user with
  | some u => some u
  | none => old.bind Ctx.user

/-- `configure_logging_mdc`, lines 37-65, in a thread. -/
def configured (e : Env) (t : Thread) : Thread := ⟨t.name, some ⟨host e.hostname, e.pid, app e.path, t.name, user e t.ctx⟩⟩

/-- One step of a thread that there is. -/
def step (e : Env) (p : Proc) : Op → Proc
  | .spawn i => match p.threads[i]? with
    | none => p
    | some t => ⟨p.threads ++ [⟨t.name, none⟩], p.log⟩
  | .configure i => match p.threads[i]? with
    | none => p
    | some t => ⟨p.threads.set i (configured e t), p.log⟩
  | .write i => match p.threads[i]? with
    | none => p
    | some t => ⟨p.threads, p.log ++ [(i, t.ctx)]⟩

/-- A process begins with one thread. -/
def run (e : Env) (ops : List Op) : Proc := ops.foldl (step e) ⟨[⟨e.comm, none⟩], []⟩

/-- The first lines of the thread of the receiver, FrameReceiverRxThread.cpp:110-116: one before its context is set. -/
def runService (i debug : Nat) : List Op := (if 1 ≤ debug then [.write i] else []) ++ [.configure i]

/-- The first lines of the thread of the processor's controller, FrameProcessorController.cpp:1020-1025. -/
def runIpcService (i debug : Nat) : List Op := .configure i :: (if 1 ≤ debug then [.write i] else [])

/-! ## The user -/

/-- Use of the result of `getpwuid`, lines 61-63: it is in a static buffer, which the next call, in whatever thread, writes. -/
inductive Pw
  | call (i : Nat)
  | use (i : Nat)
deriving DecidableEq, Repr

/-- Does a thread read the buffer while another one may write it? `open_`: threads between call and use. -/
def races : List Nat → List Pw → Bool
  | _, [] => false
  | open_, .call i :: l => open_.any (· != i) || races (i :: open_) l
  | open_, .use i :: l => races (open_.filter (· != i)) l

end Verif.LogContext
