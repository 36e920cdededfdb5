/-
Model of the threads that use the HDF5 library.
Source: /repo/cpp/frameProcessor/src/FileWriterPlugin.cpp: process_frame 139-171, process_end_of_acquisition 178-184,
start_writing 192-224, stop_writing 231-237, frame_in_acquisition 810-845, stop_acquisition 851-890, run_close_file_timeout 916-941,
execute 975-998; /repo/cpp/frameProcessor/src/Acquisition.cpp: process_frame 84-130, create_file 213-279, stop_acquisition 400-404;
/repo/cpp/frameProcessor/src/HDF5File.cpp: the mutex of a file, 132, 196, 234, 293, 407, 598, 610, 660.

The library is used by the member functions of HDF5File only, each of which holds the mutex of its file object from its beginning to
its end. Several file writers may be loaded. Left out: exceptions, frames handed to other plugins (a writer that is called by another
plugin as blocking is called by one more thread), the previous file of an acquisition, the mutex for the start of the timeout, and the
destructors. How many calls are made for a frame and for a new file, whether a frame completes an acquisition or belongs to the next,
and whether the next acquisition is started, are free. A thread that waits for a mutex does nothing.
-/
namespace Verif.Library

/-- The thread for control messages, those that hand frames to the writers, and the timeout threads of the writers. -/
inductive Thread
  | control
  | data (i : Nat)
  | timer (p : Nat)
deriving DecidableEq, Repr

/-- A file object: of which writer, and the how manieth. -/
abbrev File := Nat × Nat

/-- `close_file_mutex_` and `mutex_` of a writer, FileWriterPlugin.h:184 and 156, `mutex_` of a file, HDF5File.h:134. -/
inductive Mutex
  | close (p : Nat)
  | own (p : Nat)
  | file (f : File)
deriving DecidableEq, Repr

/-- What a thread has still to do. -/
inductive Prog
  | done
  | take (m : Mutex) (k : Prog)
  | give (m : Mutex) (k : Prog)
  | ask (p : Nat) (yes no : Prog)      -- `if (writing_)`
  | set (p : Nat) (b : Bool) (k : Prog)
  | fresh (p : Nat) (k : Prog)         -- a new acquisition with a new file object
  | lib (p : Nat) (k : Prog)           -- a member function of the current file is called
  | inside (f : File) (k : Prog)       -- it is running
deriving DecidableEq, Repr

/-- Several calls one after the other. -/
def libs (p : Nat) : Nat → Prog → Prog
  | 0, k => k
  | n + 1, k => .lib p (libs p n k)

/-- `stop_writing`, FileWriterPlugin.cpp:231-237. -/
def stop (p : Nat) (k : Prog) : Prog := .ask p (.set p false (.lib p k)) k

/-- `start_writing`, FileWriterPlugin.cpp:192-224, with `n` calls for the file and its datasets. -/
def start (p n : Nat) (k : Prog) : Prog := .ask p k (.fresh p (libs p n (.set p true k)))

/-- `stop_acquisition`, FileWriterPlugin.cpp:851-890. -/
def stopNext (p : Nat) (restart : Bool) (n : Nat) (k : Prog) : Prog := stop p (if restart then start p n k else k)

/-- The methods: a frame (of the next acquisition or not, the last of its acquisition or not, written with `w` calls), the end of an
acquisition, the two commands, and the timeout. -/
inductive Meth
  | frame (next last restart : Bool) (w n : Nat)
  | eoa (restart : Bool) (n : Nat)
  | startCmd (n : Nat)
  | stopCmd
  | timeout (restart : Bool) (n : Nat)
deriving DecidableEq, Repr

/-- The end of the methods that take both mutexes. -/
def unlock (p : Nat) : Prog := .give (.own p) (.give (.close p) .done)

/-- The frame is written, FileWriterPlugin.cpp:149-163. -/
def write (p : Nat) (last restart : Bool) (w n : Nat) : Prog :=
  .ask p (libs p w (if last then stopNext p restart n (unlock p) else unlock p)) (unlock p)

/-- The methods. -/
def body (p : Nat) : Meth → Prog
  -- FileWriterPlugin.cpp:139-171; 825-826 for a frame of the next acquisition
  | .frame next last restart w n => .take (.close p) (.take (.own p)
      (if next then stop p (start p n (write p last restart w n)) else write p last restart w n))
  -- FileWriterPlugin.cpp:178-184
  | .eoa restart n => .ask p (stopNext p restart n .done) .done
  -- FileWriterPlugin.cpp:975-992
  | .startCmd n => start p n .done
  | .stopCmd => stop p .done
  -- FileWriterPlugin.cpp:924-936: `close_file_mutex_` is taken again at the end of the wait
  | .timeout restart n => .take (.close p) (.take (.own p) (.ask p (stopNext p restart n (unlock p)) (unlock p)))

/-- A method under way. -/
structure Job where
  plugin : Nat
  meth : Meth
  prog : Prog
deriving DecidableEq, Repr

/-- `writing_` and the current file of each writer, who has the mutexes, what the threads do. -/
structure St where
  writing : Nat → Bool
  file : Nat → File
  held : Mutex → Option Thread
  run : Thread → Option Job

/-- A function is changed at one place. -/
def upd {α β : Type} [DecidableEq α] (f : α → β) (a : α) (b : β) : α → β := fun x => if x = a then b else f x

/-- The thread goes on with `k`. -/
def St.go (s : St) (t : Thread) (j : Job) (k : Prog) : St := ⟨s.writing, s.file, s.held, upd s.run t (some ⟨j.plugin, j.meth, k⟩)⟩

/-- A mutex changes hands. -/
def St.lock (s : St) (m : Mutex) (o : Option Thread) : St := ⟨s.writing, s.file, upd s.held m o, s.run⟩

/-- One step of a thread; `none`: it waits. -/
def advance (s : St) (t : Thread) (j : Job) : Prog → Option St
  | .done => some ⟨s.writing, s.file, s.held, upd s.run t none⟩
  | .take m k => if s.held m = none then some ((s.lock m (some t)).go t j k) else none
  | .give m k => if s.held m = some t then some ((s.lock m none).go t j k) else none
  | .ask p a b => some (s.go t j (if s.writing p then a else b))
  | .set p b k => some (St.go ⟨upd s.writing p b, s.file, s.held, s.run⟩ t j k)
  | .fresh p k => some (St.go ⟨s.writing, upd s.file p (p, (s.file p).2 + 1), s.held, s.run⟩ t j k)
  | .lib p k => if s.held (.file (s.file p)) = none then some ((s.lock (.file (s.file p)) (some t)).go t j (.inside (s.file p) k)) else none
  | .inside f k => some ((s.lock (.file f) none).go t j k)

/-- Which thread calls what. -/
def calls : Thread → Nat → Meth → Bool
  | .control, _, .startCmd _ => true
  | .control, _, .stopCmd => true
  | .data _, _, .frame .. => true
  | .data _, _, .eoa .. => true
  | .timer q, p, .timeout .. => decide (q = p)
  | _, _, _ => false

/-- A step of the process with `n` writers: a method is called, or a thread goes on. -/
inductive Step (n : Nat) : St → St → Prop
  | call {s : St} {t p m} : s.run t = none → p < n → calls t p m = true → Step n s (s.go t ⟨p, m, body p m⟩ (body p m))
  | go {s s' : St} {t j} : s.run t = some j → advance s t j j.prog = some s' → Step n s s'

/-- Nothing has happened. -/
def init : St := ⟨fun _ => false, fun p => (p, 0), fun _ => none, fun _ => none⟩

/-- The states that can occur. -/
inductive Reach (n : Nat) : St → Prop
  | init : Reach n init
  | step {s s' : St} : Reach n s → Step n s s' → Reach n s'

end Verif.Library
