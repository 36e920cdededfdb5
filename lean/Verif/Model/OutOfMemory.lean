/-
Model of the memory that the frame processor takes by hand, when there may be none left.
Source: /repo/cpp/frameProcessor/src/DataBlock.cpp: constructor 23-37, destructor 42-46, resize 76-92, copy_data 102-111;
MetaMessage.cpp: constructor 12-29, destructor 31-36; GapFillPlugin.cpp: insert_gaps 143-197 (the buffer only);
BloscPlugin.cpp: constructor 56, destructor 84-88, get_buffer 190-210 (which nothing in the code calls);
KafkaProducerPlugin.cpp: create_message 351-366, enqueue_frame 378-410.

Every operation carries whether the system has memory for it. An address is never used twice. `malloc` gives a null
pointer when there is no memory, `posix_memalign` leaves the pointer as it is. What `new` takes is not modelled
(`std::bad_alloc` is an exception and not an access to memory).
-/
namespace Verif.OutOfMemory

/-- A pointer: not set, null, or an address. -/
inductive Ptr
  | junk
  | null
  | addr (a : Nat)
deriving DecidableEq, Repr

/-- The memory that has been taken and not returned: addresses and sizes. -/
structure Heap where
  live : List (Nat × Nat) := []
  next : Nat := 0
deriving DecidableEq, Repr

def take (h : Heap) (n : Nat) : Heap := ⟨(h.next, n) :: h.live, h.next + 1⟩

/-- `malloc(n)`, the pointer if it fails being `p`. -/
def malloc (h : Heap) (n : Nat) (has : Bool) (p : Ptr) : Heap × Ptr :=
  if has then (take h n, .addr h.next) else (h, p)

/-- `free`; `none`: undefined. -/
def free (h : Heap) : Ptr → Option Heap
  | .junk => none
  | .null => some h
  | .addr a => if (h.live.any fun x => x.1 == a) then some ⟨h.live.filter fun x => x.1 != a, h.next⟩ else none

/-- Whether the `n` bytes at a pointer may be used. -/
def usable (h : Heap) (p : Ptr) (n : Nat) : Bool :=
  n == 0 || match p with
  | .addr a => h.live.any fun x => x.1 == a && decide (n ≤ x.2)
  | _ => false

/-- The objects with memory: DataBlock, MetaMessage, the buffer of a BloscPlugin, a message handed to Kafka. -/
inductive Kind
  | block | metaMsg | blosc | kafka
deriving DecidableEq, Repr

abbrev Key := Kind × Nat

/-- The objects: pointer and size that they think they have. A BloscPlugin with a null pointer is none. -/
structure State where
  heap : Heap := {}
  objs : Key → Option (Ptr × Nat) := fun _ => none

def State.put (s : State) (h : Heap) (k : Key) (v : Option (Ptr × Nat)) : State := ⟨h, fun i => if i = k then v else s.objs i⟩

inductive Op
  | block (i n : Nat) (has : Bool)       -- DataBlock(n)
  | resize (i n : Nat) (has : Bool)
  | copy (i n : Nat)                     -- copy_data of n bytes
  | drop (i : Nat)                       -- ~DataBlock
  | metaMsg (i n : Nat) (has : Bool)     -- MetaMessage
  | metaDrop (i : Nat)                   -- ~MetaMessage
  | gap (n : Nat) (has : Bool)           -- insert_gaps with an image of n bytes
  | blosc (i n : Nat) (has : Bool)       -- get_buffer(n)
  | bloscDrop (i : Nat)                  -- ~BloscPlugin
  | kafka (i n : Nat) (has taken : Bool) -- enqueue_frame of a message of n bytes; `taken`: rd_kafka_produce succeeds
  | delivered (i : Nat)                  -- librdkafka frees the message
deriving DecidableEq, Repr

/-- Free the memory of an object that goes away. -/
def destroy (s : State) (k : Key) : Option State :=
  match s.objs k with
  | none => some s
  | some (p, _) => (free s.heap p).map fun h => s.put h k none

/-- The constructor of DataBlock, DataBlock.cpp:23-37: the error is written to the log, the pointer is not set. -/
def newBlock (s : State) (i n : Nat) (has : Bool) : State :=
  s.put (malloc s.heap n has .junk).1 (.block, i) (some ((malloc s.heap n has .junk).2, n))

/-- `resize`, DataBlock.cpp:76-92: the pointer stays what it was if there is no memory. -/
def resize (s : State) (i n : Nat) (has : Bool) (p : Ptr) (m : Nat) : Option State :=
  if n ≠ m then (free s.heap p).map fun h => s.put (malloc h n has p).1 (.block, i) (some ((malloc h n has p).2, n))
  else some s

/-- `copy_data`, DataBlock.cpp:102-111. -/
def copyData (s : State) (p : Ptr) (m n : Nat) : Option State :=
  if usable s.heap p (if n > m then m else n) then some s else none

/-- Memory that is filled at once: MetaMessage.cpp:25-28, KafkaProducerPlugin.cpp:353-364. -/
def newFilled (s : State) (k : Key) (n : Nat) (has : Bool) : Option State :=
  if usable (malloc s.heap n has .null).1 (malloc s.heap n has .null).2 n then
    some (s.put (malloc s.heap n has .null).1 k (some ((malloc s.heap n has .null).2, n)))
  else none

/-- GapFillPlugin.cpp:143-197: taken, filled and returned. -/
def gap (s : State) (n : Nat) (has : Bool) : Option State :=
  if usable (malloc s.heap n has .null).1 (malloc s.heap n has .null).2 n then
    (free (malloc s.heap n has .null).1 (malloc s.heap n has .null).2).map fun h => ⟨h, s.objs⟩
  else none

/-- BloscPlugin.cpp:206-209: an exception if there is no memory; the pointer is null then. -/
def bufferNew (s : State) (i n : Nat) (has : Bool) : State :=
  if has then s.put (take s.heap n) (.blosc, i) (some (.addr s.heap.next, n)) else s

/-- `get_buffer`, BloscPlugin.cpp:190-210. -/
def getBuffer (s : State) (i n : Nat) (has : Bool) : Option State :=
  match s.objs (.blosc, i) with
  | none => some (bufferNew s i n has)
  | some (_, m) => if n ≤ m then some s else (destroy s (.blosc, i)).map fun s => bufferNew s i n has

/-- One operation; `none`: undefined behaviour. Nothing happens if the object does not exist, or exists already. -/
def step (s : State) : Op → Option State
  | .block i n has => match s.objs (.block, i) with
    | some _ => some s
    | none => some (newBlock s i n has)
  | .resize i n has => match s.objs (.block, i) with
    | none => some s
    | some (p, m) => resize s i n has p m
  | .copy i n => match s.objs (.block, i) with
    | none => some s
    | some (p, m) => copyData s p m n
  | .drop i => destroy s (.block, i)
  | .metaMsg i n has => match s.objs (.metaMsg, i) with
    | some _ => some s
    | none => newFilled s (.metaMsg, i) n has
  | .metaDrop i => destroy s (.metaMsg, i)
  | .gap n has => gap s n has
  | .blosc i n has => getBuffer s i n has
  | .bloscDrop i => destroy s (.blosc, i)
  | .kafka i n has taken => match s.objs (.kafka, i) with
    | some _ => some s
    | none => (newFilled s (.kafka, i) n has).bind fun s => if taken then some s else destroy s (.kafka, i)
  | .delivered i => destroy s (.kafka, i)

def run (s : State) : List Op → Option State
  | [] => some s
  | o :: l => (step s o).bind fun s => run s l

end Verif.OutOfMemory
