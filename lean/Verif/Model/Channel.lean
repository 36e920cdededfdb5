/-!
Channels.

* cpp/common/src/IpcChannel.cpp: `within` 11, constructor 59-71, `bind` 107-122, `unbind` 144-152, `has_bound_endpoint` 174-177,
  `recv` 328-346, `recv_raw` 360-383, `eom` 418-432
* cpp/frameProcessor/src/FrameProcessorController.cpp: `setupControlInterface` 930-946, `setupMetaTxInterface` 990-1002
* cpp/frameReceiver/src/FrameReceiverZMQRxThread.cpp: `handle_receive_socket` 58-76

ZeroMQ is the environment: it hands over the parts of a message together and in order; the queue of a socket is the list of the
parts not read yet.
-/
namespace Verif.Channel

/-! ## Receiving on a ROUTER socket -/

/-- A message as it arrives: ZeroMQ puts the identity of the sender before the parts sent. -/
structure Msg (α : Type) where
  sender : α
  parts : List α
deriving DecidableEq, Repr

/-- The queue of the socket. -/
def queue {α} (l : List (Msg α)) : List α := l.flatMap (fun m => m.sender :: m.parts)

inductive Recv (α : Type)
  | got (identity payload : α) (rest : List α)
  | waits                          -- a `socket_.recv` blocks
deriving DecidableEq, Repr

/-- `recv` of a ROUTER socket: one part is the identity, one part the message. -/
def recv {α} : List α → Recv α
  | i :: p :: rest => .got i p rest
  | _ => .waits

/-- The event loop calls the handler, and with it `recv`, as long as there is input: what the handlers get, and whether the last
one waits inside `recv`. -/
def handled {α} : List α → List (α × α) × Bool
  | [] => ([], false)
  | [_] => ([], true)
  | i :: p :: rest => ((i, p) :: (handled rest).1, (handled rest).2)

/-! ## The identity of a DEALER socket -/

/-- The conversion of `random()` to `float`: rounding to 24 bits, ties to even. -/
def rnd24 (n : Nat) : Nat :=
  let e := Nat.log2 n - 23
  let q := n / 2 ^ e
  let r := n % 2 ^ e
  if 2 * r < 2 ^ e ∨ (2 * r = 2 ^ e ∧ q % 2 = 0) then q * 2 ^ e else (q + 1) * 2 ^ e

/-- `within(0x10000)`: the product and the quotient by 2^31 are exact. -/
def within (random : Nat) : Nat := 65536 * rnd24 random / 2 ^ 31

/-- The number of characters `%04x` gives. -/
def hexLength (n : Nat) : Nat := max 4 (Nat.log2 n / 4 + 1)

/-- The characters written by the `sprintf`, with the final NUL. -/
def written (r1 r2 : Nat) : Nat := hexLength (within r1) + 1 + hexLength (within r2) + 1

/-- `char identity[10]`. -/
def bufferSize : Nat := 10

/-! ## Binding -/

/-- The map of endpoints and the addresses the socket listens on. -/
structure Chan where
  map : String → Option String := fun _ => none        -- bound_endpoints_
  sock : List String := []

inductive BindRes
  | bound (address : String)     -- the address is returned by ZMQ_LAST_ENDPOINT
  | refused                      -- `socket_.bind` throws
  | long (address : String)      -- bound, but the address does not fit into 256 characters: `getsockopt` throws
deriving DecidableEq, Repr

def put (m : String → Option String) (k : String) (v : Option String) : String → Option String :=
  fun x => if x = k then v else m x

def bind (c : Chan) (ep : String) : BindRes → Chan × Bool
  | .bound a => ({ map := put c.map ep (some a), sock := a :: c.sock }, true)
  | .refused => (c, false)
  | .long a => ({ c with sock := a :: c.sock }, false)

def unbind (c : Chan) (ep : String) : Chan :=
  match c.map ep with
  | some a => { map := put c.map ep none, sock := c.sock.erase a }
  | none => c

def hasBound (c : Chan) (ep : String) : Bool := (c.map ep).isSome

inductive Op
  | bind (ep : String) (r : BindRes)
  | unbind (ep : String)
deriving DecidableEq, Repr

def step (c : Chan) : Op → Chan
  | .bind ep r => (bind c ep r).1
  | .unbind ep => unbind c ep

def run (c : Chan) (l : List Op) : Chan := l.foldl step c

/-! ## The processor's endpoints -/

structure Proc where
  chan : Chan := {}
  endpoint : String := ""        -- ctrlChannelEndpoint_ or metaTxChannelEndpoint_

/-- `setupControlInterface`, `setupMetaTxInterface`: nothing is unbound; false is a `runtime_error`. -/
def setup (p : Proc) (ep : String) (r : BindRes) : Proc × Bool :=
  if (bind p.chan ep r).2 then ({ chan := (bind p.chan ep r).1, endpoint := ep }, true)
  else ({ p with chan := (bind p.chan ep r).1 }, false)

def setups (p : Proc) (l : List (String × BindRes)) : Proc := l.foldl (fun p x => (setup p x.1 x.2).1) p

/-! ## Receiving frames from ZeroMQ -/

/-- What the decoder is told. -/
inductive Call
  | message (bytes : Nat)        -- `process_message`
  | eom                          -- `frame_meta_data(1)`
deriving DecidableEq, Repr

/-- `handle_receive_socket` for the parts of one message of these sizes. `room` is the size of the buffer given by the decoder for the
n-th part, to which the part is copied whatever its size; `none` is a write behind it. -/
def rxParts (room : Nat → Nat) : Nat → List Nat → Option (List Call × Nat)
  | n, [] => some ([], n)
  | n, b :: l =>
    if room n < b then none
    else match rxParts room (n + 1) l with
      | none => none
      | some (cs, k) => some (.message b :: (if l = [] then [.eom] else []) ++ cs, k)

/-- Any number of messages. -/
def rxAll (room : Nat → Nat) : Nat → List (List Nat) → Option (List Call)
  | _, [] => some []
  | n, m :: ms =>
    match rxParts room n m with
    | none => none
    | some (cs, k) =>
      match rxAll room k ms with
      | none => none
      | some ds => some (cs ++ ds)

end Verif.Channel
