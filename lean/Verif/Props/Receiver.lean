import Verif.Props.Ports
import Verif.Props.IpcMessage
import Verif.Props.MessageEq

/-!
C36: an unchanged configuration does not disturb the receiver; C37: the status reflects all four channels; C64: the
receiver is reported complete only if it is; C65: a new decoder gets a new configuration; C66: the receiver stops after
the configured number of frames.
-/
namespace Verif.Receiver
open Verif.Ipc

/-! ## Histories -/

/-- States of the controller after any sequence of configure commands, releases and resets. -/
inductive Reach : St → Prop
  | init (path : Str) : Reach { cfg := { path := path } }
  | configure (e : Env) (ps : Json) (s : St) : Reach s → Reach (configure e ps s).1
  | release (s : St) : Reach s → Reach (release s).1
  | reset (e : Env2) (s : St) : Reach s → Reach (resetStats e s).1

theorem andThen_pres {P : St → Prop} {r : St × Out} {f : St → St × Out} (hr : P r.1) (hf : ∀ s, P s → P (f s).1) :
    P (andThen r f).1 := by
  obtain ⟨s, o⟩ := r
  cases o <;> first | exact hf s hr | exact hr

theorem andThen_ok {r : St × Out} {f : St → St × Out} (h : (andThen r f).2 = .ok) : r.2 = .ok ∧ (f r.1).2 = .ok ∧
    andThen r f = f r.1 := by
  obtain ⟨s, o⟩ := r
  cases o <;> first | exact ⟨rfl, h, rfl⟩ | (simp [andThen] at h)

/-- A predicate kept by every step of `configure` is kept by `configure`. -/
structure Kept (e : Env) (ps : Json) (P : St → Prop) : Prop where
  debug : ∀ s, P s → P (setDebug ps s).1
  frames : ∀ s, P s → P (setFrames ps s).1
  unflag : ∀ s, P s → P { s with ipcOk := false }
  ctrl : ∀ s, P s → P (setCtrl e ps s).1
  rx : ∀ s, P s → P (setRx e ps s).1
  ready : ∀ s, P s → P (setReady e ps s).1
  release : ∀ s, P s → P (setRelease e ps s).1
  flag : ∀ s, P s → P (flagIpc s).1
  path : ∀ s, P s → P (setPath ps s).1
  type : ∀ s, P s → P (setType ps s).1
  decoder : ∀ s, P s → P (setDecoderConfig ps s).1
  load : ∀ s, P s → P (loadDecoder e s).1
  name : ∀ s, P s → P (setName ps s).1
  mem : ∀ s, P s → P (setMem ps s).1
  create : ∀ s, P s → P (createManager e s).1
  rxType : ∀ s, P s → P (setRxType ps s).1
  address : ∀ s, P s → P (setAddress ps s).1
  recv : ∀ s, P s → P (setRecvSize ps s).1
  ports : ∀ s, P s → P (setPorts ps s).1
  start : ∀ s, P s → P (startThread e s).1
  finish : ∀ s, P s → P (finish s).1

theorem Kept.ipcAll {e : Env} {ps : Json} {P : St → Prop} (k : Kept e ps P) (s : St) (h : P s) :
    P (configureIpc e ps s).1 :=
  andThen_pres (k.ctrl _ (k.unflag _ h)) fun s h =>
  andThen_pres (k.rx s h) fun s h =>
  andThen_pres (k.ready s h) fun s h =>
  andThen_pres (k.release s h) k.flag

theorem Kept.decoderAll {e : Env} {ps : Json} {P : St → Prop} (k : Kept e ps P) (s : St) (h : P s) :
    P (configureDecoder e ps s).1 :=
  andThen_pres (k.path s h) fun s h =>
  andThen_pres (k.type s h) fun s h =>
  andThen_pres (k.decoder s h) k.load

theorem Kept.bufferAll {e : Env} {ps : Json} {P : St → Prop} (k : Kept e ps P) (s : St) (h : P s) :
    P (configureBuffer e ps s).1 :=
  andThen_pres (k.name s h) fun s h =>
  andThen_pres (k.mem s h) k.create

theorem Kept.rxAll {e : Env} {ps : Json} {P : St → Prop} (k : Kept e ps P) (s : St) (h : P s) :
    P (configureRx e ps s).1 :=
  andThen_pres (k.rxType s h) fun s h =>
  andThen_pres (k.address s h) fun s h =>
  andThen_pres (k.recv s h) fun s h =>
  andThen_pres (k.ports s h) k.start

theorem Kept.all {e : Env} {ps : Json} {P : St → Prop} (k : Kept e ps P) (s : St) (h : P s) :
    P (configure e ps s).1 :=
  andThen_pres (k.debug s h) fun s h =>
  andThen_pres (k.frames s h) fun s h =>
  andThen_pres (k.ipcAll s h) fun s h =>
  andThen_pres (k.decoderAll s h) fun s h =>
  andThen_pres (k.bufferAll s h) fun s h =>
  andThen_pres (k.rxAll s h) k.finish

/-- Go through the cases of one step. -/
macro "step" : tactic => `(tactic| (
  intro s h
  simp only [setDebug, setFrames, setCtrl, setRx, setReady, setRelease, flagIpc, setPath, setType, setDecoderConfig,
    loadDecoder, setName, setMem, createManager, setRxType, setAddress, setRecvSize, setPorts, startThread, finish,
    stopThread]
  (repeat' split) <;> simp_all))

macro "steps" : tactic => `(tactic| (constructor <;> step))

/-! ## C37 -/

/-- The full claim. The flags are set where a channel is bound. -/
def C37_statement : Prop :=
  ∀ s, Reach s → s.ipcOk = true → s.ctrlSet = true ∧ s.rxSet = true ∧ s.readySet = true ∧ s.releaseSet = true

/-- An invariant of all histories. -/
theorem Reach.inv {P : St → Prop} (h0 : ∀ path, P { cfg := { path := path } }) (hk : ∀ e ps, Kept e ps P)
    (hr : ∀ s, P s → P (Receiver.release s).1) (hs : ∀ e s, P s → P (resetStats e s).1) (s : St) (h : Reach s) : P s := by
  induction h with
  | init path => exact h0 path
  | configure e ps s _ ih => exact (hk e ps).all s ih
  | release s _ ih => exact hr s ih
  | reset e s _ ih => exact hs e s ih

/-- Go through the cases of the other steps. -/
macro "others" : tactic => `(tactic| (
  first | intro s h | skip
  simp only [Receiver.release, resetStats]
  (repeat' split) <;> simp_all))

/-- Three channels are configured if the status says so. Missing: the frame release channel. -/
theorem C37_partial (s : St) (h : Reach s) :
    s.ipcOk = true → s.ctrlSet = true ∧ s.rxSet = true ∧ s.readySet = true := by
  refine Reach.inv (P := fun s => s.ipcOk = true → s.ctrlSet = true ∧ s.rxSet = true ∧ s.readySet = true)
    ?_ ?_ ?_ ?_ s h
  · simp
  · intro e ps; steps
  · others
  · intro e; others

/-- An environment in which everything succeeds. -/
def good : Env := ⟨fun _ => true, fun _ _ => true, fun _ => true, fun _ _ => some 10, true⟩

def lib : Str := "/lib/".toList

/-- Parameters from texts. -/
def texts (l : List (String × String)) : Json := .obj (l.map (fun x => (x.1.toList, .str x.2.toList)))

/-- A receiver configured without frame release channel. -/
def threeChannels : St :=
  (configure good (texts [("ctrl_endpoint", "tcp://127.0.0.1:5000"), ("rx_endpoint", "inproc://rx"),
    ("frame_ready_endpoint", "tcp://127.0.0.1:5001")]) { cfg := { path := lib } }).1

/-- The flag of the ready channel is used twice, that of the release channel never. -/
theorem C37_violated : ¬ C37_statement := by
  intro h
  have := (h threeChannels (.configure _ _ _ (.init lib)) (by decide +kernel)).2.2.2
  revert this
  decide +kernel

/-! ## C64 -/

/-- The full claim: configuration_complete is reported only if all components are configured. -/
def C64_statement : Prop :=
  ∀ s, Reach s → s.complete = true → s.ipcOk = true ∧ s.decoderOk = true ∧ s.bufferOk = true ∧ s.rxOk = true

/-- After an acknowledged configure command the flag is exact. Missing: refused configure commands. -/
theorem C64_partial (e : Env) (ps : Json) (s : St) (h : (configure e ps s).2 = .ok) :
    (configure e ps s).1.complete = true ↔
      (configure e ps s).1.ipcOk = true ∧ (configure e ps s).1.decoderOk = true ∧
      (configure e ps s).1.bufferOk = true ∧ (configure e ps s).1.rxOk = true := by
  unfold configure at h ⊢
  obtain ⟨_, h, e1⟩ := andThen_ok h
  rw [e1]
  obtain ⟨_, h, e1⟩ := andThen_ok h
  rw [e1]
  obtain ⟨_, h, e1⟩ := andThen_ok h
  rw [e1]
  obtain ⟨_, h, e1⟩ := andThen_ok h
  rw [e1]
  obtain ⟨_, h, e1⟩ := andThen_ok h
  rw [e1]
  obtain ⟨_, h, e1⟩ := andThen_ok h
  rw [e1]
  simp [finish, and_assoc]

/-- A complete configuration. -/
def fullConfig : Json :=
  texts [("ctrl_endpoint", "tcp://127.0.0.1:5000"), ("rx_endpoint", "inproc://rx"),
    ("frame_ready_endpoint", "tcp://127.0.0.1:5001"), ("frame_release_endpoint", "tcp://127.0.0.1:5002"),
    ("decoder_type", "DummyUDP")]

/-- A receiver that is completely configured. -/
def full : St := (configure good fullConfig { cfg := { path := lib } }).1

/-- A configure command for a decoder that cannot be loaded is refused; the old decoder is gone, but the receiver is
still reported completely configured. -/
theorem C64_violated : ¬ C64_statement := by
  intro h
  have := (h (configure { good with load := fun _ _ => false } (texts [("decoder_type", "Missing")]) full).1
    (.configure _ _ _ (.configure _ _ _ (.init lib))) (by decide +kernel)).2.1
  revert this
  decide +kernel

example : full.complete = true ∧ full.decoder = true ∧ full.manager = true ∧ full.thread = true ∧
    full.effects = [.load, .create, .start] := by decide +kernel

/-! ## C36 -/

/-- A configuration that equals itself (C180): no object has two members of one name, no parameter has a name with the character
zero in it, no number is NaN. -/
def Uniq (j : Json) : Prop := MessageEq.Spec.TidyParams MessageEq.Spec.Numbers (some j)

theorem findM_of_mem (l : List (Str × Json)) (h : (l.map (·.1)).Nodup) (n : Str) (v : Json) (hm : (n, v) ∈ l) :
    findM l n = some v := by
  induction l with
  | nil => simp at hm
  | cons a l ih =>
    obtain ⟨m, w⟩ := a
    simp only [List.map_cons, List.nodup_cons] at h
    rcases List.mem_cons.1 hm with e | hm
    · cases e; simp [findM]
    · have : ¬ m = n := fun e => h.1 (e ▸ List.mem_map.2 ⟨(n, v), hm, rfl⟩)
      simp [findM, this, ih h.2 hm]

theorem msgEq_refl (j : Json) (h : Uniq j) : msgEq j j = true := MessageEq.blockEq_refl (some j) h

/-- The parameters of the decoder, of the shared memory and of the receiver thread in a message are the current ones. -/
structure SameDecoder (l : List (Str × Json)) (c : Config) : Prop where
  path : ∀ v, findM l "decoder_path".toList = some v → v = .str c.path
  type : ∀ v, findM l "decoder_type".toList = some v → v = .str c.type
  decoder : ∀ v, findM l "decoder_config".toList = some v → v = c.decoder

structure SameBuffer (l : List (Str × Json)) (c : Config) : Prop where
  name : ∀ v, findM l "shared_buffer_name".toList = some v → v = .str c.name
  mem : ∀ v, findM l "max_buffer_mem".toList = some v → v = .num c.mem

structure SameRx (l : List (Str × Json)) (c : Config) : Prop where
  rx : ∀ v, findM l "rx_endpoint".toList = some v → v = .str c.rx
  rxType : ∀ v, findM l "rx_type".toList = some v → v = .str (rxTypeName c.rxType)
  address : ∀ v, findM l "rx_address".toList = some v → v = .str c.address
  recv : ∀ v, findM l "rx_recv_buffer_size".toList = some v → v = .num c.recvSize
  ports : ∀ v, findM l "rx_ports".toList = some v → some v = (portText c.ports).map .str

/-- The full claim. -/
def C36_statement : Prop :=
  ∀ s, Reach s → ∀ e l, Uniq s.cfg.decoder → SameDecoder l s.cfg → SameBuffer l s.cfg → SameRx l s.cfg →
    (configure e (.obj l) s).1.effects = s.effects

theorem paramOr_same {α : Type} (l : List (Str × Json)) (n : String) (read : Json → Option α) (d x : α)
    (h : ∀ v, findM l n.toList = some v → ∀ y, read v = some y → y = d) (hx : paramOr (.obj l) n read d = some x) :
    x = d := by
  unfold paramOr at hx
  cases hf : findM l n.toList with
  | none => simp only [hf, Option.some.injEq] at hx; exact hx.symm
  | some v => simp only [hf] at hx; exact h v hf x hx

theorem asStr_str (s y : Str) (h : Json.asStr (.str s) = some y) : y = s := by
  simp only [Json.asStr, Option.some.injEq] at h
  exact h.symm

theorem rxType_roundtrip (t : RxType) : rxTypeOf (rxTypeName t) = t := by cases t <;> decide +kernel

/-- The decoder parts: nothing asks for a reload, and nothing has been loaded. -/
def QuietD (c : Config) (n : Nat) (s : St) : Prop :=
  s.needDecoder = false ∧ s.cfg.path = c.path ∧ s.cfg.type = c.type ∧ s.cfg.decoder = c.decoder ∧ s.effects.count .load = n

theorem setPath_same {l : List (Str × Json)} {c : Config} (h : SameDecoder l c) {s : St} (hp : s.cfg.path = c.path) :
    (setPath (.obj l) s).1 = s := by
  unfold setPath
  split
  · rfl
  · next p e =>
    have := paramOr_same l _ _ _ _ (fun v hv y hy => by rw [h.path v hv] at hy; rw [hp]; exact asStr_str _ _ hy) e
    rw [if_pos this]
    split <;> rfl

theorem setType_same {l : List (Str × Json)} {c : Config} (h : SameDecoder l c) {s : St} (hp : s.cfg.type = c.type) :
    (setType (.obj l) s).1 = s := by
  unfold setType
  split
  · rfl
  · next p e =>
    have := paramOr_same l _ _ _ _ (fun v hv y hy => by rw [h.type v hv] at hy; rw [hp]; exact asStr_str _ _ hy) e
    rw [if_pos this]

theorem setDecoderConfig_same {l : List (Str × Json)} {c : Config} (h : SameDecoder l c) (hu : Uniq c.decoder) {s : St}
    (hp : s.cfg.decoder = c.decoder) : (setDecoderConfig (.obj l) s).1 = s := by
  unfold setDecoderConfig
  split
  · rfl
  · rfl
  · next new e =>
    have : new = s.cfg.decoder := by
      unfold param at e
      cases hf : findM l "decoder_config".toList with
      | none => simp only [hf] at e; cases e
      | some v =>
        simp only [hf, Option.map_some, Option.some.injEq] at e
        rw [← e, hp]
        exact h.decoder v hf
    rw [this, hp, if_pos (msgEq_refl _ hu)]

theorem quietD {e : Env} {l : List (Str × Json)} {c : Config} (h : SameDecoder l c) (hu : Uniq c.decoder) (n : Nat) :
    Kept e (.obj l) (QuietD c n) := by
  unfold QuietD
  constructor
  case path => intro s hs; rw [setPath_same h hs.2.1]; exact hs
  case type => intro s hs; rw [setType_same h hs.2.2.1]; exact hs
  case decoder => intro s hs; rw [setDecoderConfig_same h hu hs.2.2.2.1]; exact hs
  all_goals step

/-- The decoder is not loaded again by a message that does not change its parameters, whatever else it changes.
Missing from the full claim: an earlier message has asked for a (re)load; the request is never cleared. -/
theorem C36_decoder_partial (e : Env) (s : St) (l : List (Str × Json)) (hn : s.needDecoder = false)
    (hu : Uniq s.cfg.decoder) (h : SameDecoder l s.cfg) :
    (configure e (.obj l) s).1.effects.count .load = s.effects.count .load :=
  ((quietD (e := e) h hu _).all s ⟨hn, rfl, rfl, rfl, rfl⟩).2.2.2.2

/-- The decoder and the shared memory parts. -/
def QuietB (c : Config) (n k : Nat) (s : St) : Prop :=
  QuietD c n s ∧ s.needBuffer = false ∧ s.cfg.name = c.name ∧ s.cfg.mem = c.mem ∧ s.effects.count .create = k

theorem setName_same {l : List (Str × Json)} {c : Config} (h : SameBuffer l c) {s : St} (hp : s.cfg.name = c.name) :
    (setName (.obj l) s).1 = s := by
  unfold setName
  split
  · rfl
  · next p e =>
    have := paramOr_same l _ _ _ _ (fun v hv y hy => by rw [h.name v hv] at hy; rw [hp]; exact asStr_str _ _ hy) e
    rw [if_pos this]

theorem setMem_same {l : List (Str × Json)} {c : Config} (h : SameBuffer l c) {s : St} (hp : s.cfg.mem = c.mem) :
    (setMem (.obj l) s).1 = s := by
  unfold setMem
  split
  · rfl
  · next p e =>
    have := paramOr_same l _ _ _ _ (fun v hv y hy => by
      rw [h.mem v hv] at hy
      rw [hp]
      simp only [Json.asUint64] at hy
      split at hy
      · simp only [Option.some.injEq] at hy; omega
      · cases hy) e
    rw [if_pos this]

theorem quietB {e : Env} {l : List (Str × Json)} {c : Config} (h : SameDecoder l c) (hu : Uniq c.decoder)
    (hb : SameBuffer l c) (n k : Nat) : Kept e (.obj l) (QuietB c n k) := by
  unfold QuietB QuietD
  constructor
  case path => intro s hs; rw [setPath_same h hs.1.2.1]; exact hs
  case type => intro s hs; rw [setType_same h hs.1.2.2.1]; exact hs
  case decoder => intro s hs; rw [setDecoderConfig_same h hu hs.1.2.2.2.1]; exact hs
  case name => intro s hs; rw [setName_same hb hs.2.2.1]; exact hs
  case mem => intro s hs; rw [setMem_same hb hs.2.2.2.1]; exact hs
  all_goals step

/-- The shared memory is not created again by a message that changes neither its parameters nor those of the decoder. -/
theorem C36_buffer_partial (e : Env) (s : St) (l : List (Str × Json)) (hn : s.needDecoder = false)
    (hn2 : s.needBuffer = false) (hu : Uniq s.cfg.decoder) (h : SameDecoder l s.cfg) (hb : SameBuffer l s.cfg) :
    (configure e (.obj l) s).1.effects.count .create = s.effects.count .create :=
  ((quietB (e := e) h hu hb _ _).all s ⟨⟨hn, rfl, rfl, rfl, rfl⟩, hn2, rfl, rfl, rfl⟩).2.2.2.2

/-- All parts. -/
def QuietR (c : Config) (l : List Eff) (s : St) : Prop :=
  QuietB c (l.count .load) (l.count .create) s ∧ s.needRx = false ∧ s.cfg.rx = c.rx ∧ s.cfg.rxType = c.rxType ∧
  s.cfg.address = c.address ∧ s.cfg.recvSize = c.recvSize ∧ s.cfg.ports = c.ports ∧ s.effects = l

theorem setRx_same {e : Env} {l : List (Str × Json)} {c : Config} (h : SameRx l c) {s : St} (hp : s.cfg.rx = c.rx) :
    (setRx e (.obj l) s).1 = s := by
  unfold setRx
  split
  · rfl
  · rfl
  · next ep e =>
    have : ep = s.cfg.rx := by
      unfold param at e
      cases hf : findM l "rx_endpoint".toList with
      | none => simp only [hf] at e; cases e
      | some v =>
        simp only [hf, h.rx v hf, Json.asStr, Option.map_some, Option.some.injEq] at e
        rw [← e, hp]
    rw [if_pos this]

theorem setRxType_same {l : List (Str × Json)} {c : Config} (h : SameRx l c) {s : St} (hp : s.cfg.rxType = c.rxType) :
    (setRxType (.obj l) s).1 = s := by
  unfold setRxType
  split
  · rfl
  · next p e =>
    have := paramOr_same l _ _ _ _ (fun v hv y hy => by rw [h.rxType v hv] at hy; rw [hp]; exact asStr_str _ _ hy) e
    rw [this, if_pos (rxType_roundtrip _)]

theorem setAddress_same {l : List (Str × Json)} {c : Config} (h : SameRx l c) {s : St} (hp : s.cfg.address = c.address) :
    (setAddress (.obj l) s).1 = s := by
  unfold setAddress
  split
  · rfl
  · next p e =>
    have := paramOr_same l _ _ _ _ (fun v hv y hy => by rw [h.address v hv] at hy; rw [hp]; exact asStr_str _ _ hy) e
    rw [if_pos this]

theorem setRecvSize_same {l : List (Str × Json)} {c : Config} (h : SameRx l c) {s : St}
    (hp : s.cfg.recvSize = c.recvSize) : (setRecvSize (.obj l) s).1 = s := by
  unfold setRecvSize
  split
  · rfl
  · next p e =>
    have := paramOr_same l _ _ _ _ (fun v hv y hy => by
      rw [h.recv v hv] at hy
      rw [hp]
      simp only [Json.asInt] at hy
      split at hy
      · simp only [Option.some.injEq] at hy; exact hy.symm
      · cases hy) e
    rw [if_pos this]

theorem setPorts_same {l : List (Str × Json)} {c : Config} (h : SameRx l c) {s : St} (hp : s.cfg.ports = c.ports) :
    (setPorts (.obj l) s).1 = s := by
  unfold setPorts
  split
  · rfl
  · next cur ec =>
    split
    · rfl
    · next p e =>
      have := paramOr_same l _ _ _ _ (fun v hv y hy => by
        have h1 := h.ports v hv
        rw [← hp, ec] at h1
        simp only [Option.map_some, Option.some.injEq] at h1
        rw [h1] at hy
        exact asStr_str _ _ hy) e
      rw [if_pos this]

theorem quietR {e : Env} {l : List (Str × Json)} {c : Config} (h : SameDecoder l c) (hu : Uniq c.decoder)
    (hb : SameBuffer l c) (hr : SameRx l c) (k : List Eff) : Kept e (.obj l) (QuietR c k) := by
  unfold QuietR QuietB QuietD
  constructor
  case path => intro s hs; rw [setPath_same h hs.1.1.2.1]; exact hs
  case type => intro s hs; rw [setType_same h hs.1.1.2.2.1]; exact hs
  case decoder => intro s hs; rw [setDecoderConfig_same h hu hs.1.1.2.2.2.1]; exact hs
  case name => intro s hs; rw [setName_same hb hs.1.2.2.1]; exact hs
  case mem => intro s hs; rw [setMem_same hb hs.1.2.2.2.1]; exact hs
  case rx => intro s hs; rw [setRx_same hr hs.2.2.1]; exact hs
  case rxType => intro s hs; rw [setRxType_same hr hs.2.2.2.1]; exact hs
  case address => intro s hs; rw [setAddress_same hr hs.2.2.2.2.1]; exact hs
  case recv => intro s hs; rw [setRecvSize_same hr hs.2.2.2.2.2.1]; exact hs
  case ports => intro s hs; rw [setPorts_same hr hs.2.2.2.2.2.2.1]; exact hs
  all_goals step

/-- A message that changes nothing disturbs nothing, provided no earlier message has asked for a (re)configuration. -/
theorem C36_partial (e : Env) (s : St) (l : List (Str × Json)) (hn : s.needDecoder = false)
    (hn2 : s.needBuffer = false) (hn3 : s.needRx = false) (hu : Uniq s.cfg.decoder) (h : SameDecoder l s.cfg)
    (hb : SameBuffer l s.cfg) (hr : SameRx l s.cfg) : (configure e (.obj l) s).1.effects = s.effects :=
  ((quietR (e := e) h hu hb hr _).all s
    ⟨⟨⟨hn, rfl, rfl, rfl, rfl⟩, hn2, rfl, rfl, rfl⟩, hn3, rfl, rfl, rfl, rfl, rfl, rfl⟩).2.2.2.2.2.2.2

/-- An empty configure command after a complete configuration reloads the decoder, recreates the shared memory and
restarts the thread. -/
theorem C36_violated : ¬ C36_statement := by
  intro h
  have := h full (.configure _ _ _ (.init lib)) good [] (by
    have : full.cfg.decoder = .obj [] := rfl
    rw [this]
    exact ⟨by simp [MessageEq.Spec.Tidy, MessageEq.Spec.TidyM], by simp⟩) ⟨by simp [findM], by simp [findM], by simp [findM]⟩
    ⟨by simp [findM], by simp [findM]⟩ ⟨by simp [findM], by simp [findM], by simp [findM], by simp [findM], by simp [findM]⟩
  revert this
  decide +kernel

/-- The requests are never cleared. -/
theorem need_mono (e : Env) (ps : Json) (s : St) (h : s.needDecoder = true) : (configure e ps s).1.needDecoder = true := by
  have k : Kept e ps (fun s => s.needDecoder = true) := by steps
  exact k.all s h

theorem ipc_effects (e : Env) (ps : Json) (s : St) (k : List Eff) (h : s.needDecoder = true ∧ s.effects = k) :
    (configureIpc e ps s).1.needDecoder = true ∧ (configureIpc e ps s).1.effects = k := by
  have c1 : ∀ s : St, s.needDecoder = true ∧ s.effects = k →
      (setCtrl e ps s).1.needDecoder = true ∧ (setCtrl e ps s).1.effects = k := by step
  have c2 : ∀ s : St, s.needDecoder = true ∧ s.effects = k →
      (setRx e ps s).1.needDecoder = true ∧ (setRx e ps s).1.effects = k := by step
  have c3 : ∀ s : St, s.needDecoder = true ∧ s.effects = k →
      (setReady e ps s).1.needDecoder = true ∧ (setReady e ps s).1.effects = k := by step
  have c4 : ∀ s : St, s.needDecoder = true ∧ s.effects = k →
      (setRelease e ps s).1.needDecoder = true ∧ (setRelease e ps s).1.effects = k := by step
  have c5 : ∀ s : St, s.needDecoder = true ∧ s.effects = k →
      (flagIpc s).1.needDecoder = true ∧ (flagIpc s).1.effects = k := by step
  exact andThen_pres (P := fun s => s.needDecoder = true ∧ s.effects = k) (c1 _ h) fun s h =>
    andThen_pres (P := fun s => s.needDecoder = true ∧ s.effects = k) (c2 s h) fun s h =>
    andThen_pres (P := fun s => s.needDecoder = true ∧ s.effects = k) (c3 s h) fun s h =>
    andThen_pres (P := fun s => s.needDecoder = true ∧ s.effects = k) (c4 s h) c5

theorem decoder_effects (e : Env) (ps : Json) (s : St) (k : List Eff) (h : s.needDecoder = true ∧ s.effects = k)
    (ho : (configureDecoder e ps s).2 = .ok) :
    (configureDecoder e ps s).1.cfg.type = "unknown".toList ∨
    ((configureDecoder e ps s).1.needBuffer = true ∧ (configureDecoder e ps s).1.decoder = true ∧
      (configureDecoder e ps s).1.effects = k ++ [.load]) := by
  have c1 : ∀ s : St, s.needDecoder = true ∧ s.effects = k →
      (setPath ps s).1.needDecoder = true ∧ (setPath ps s).1.effects = k := by step
  have c2 : ∀ s : St, s.needDecoder = true ∧ s.effects = k →
      (setType ps s).1.needDecoder = true ∧ (setType ps s).1.effects = k := by step
  have c3 : ∀ s : St, s.needDecoder = true ∧ s.effects = k →
      (setDecoderConfig ps s).1.needDecoder = true ∧ (setDecoderConfig ps s).1.effects = k := by step
  unfold configureDecoder at ho ⊢
  obtain ⟨_, ho, e1⟩ := andThen_ok ho
  rw [e1]
  obtain ⟨_, ho, e2⟩ := andThen_ok ho
  rw [e2]
  obtain ⟨_, ho, e3⟩ := andThen_ok ho
  rw [e3]
  have h := c3 _ (c2 _ (c1 s h))
  generalize (setDecoderConfig ps (setType ps (setPath ps s).1).1).1 = t at h ho ⊢
  unfold loadDecoder at ho ⊢
  rw [if_pos h.1] at ho ⊢
  by_cases ht : t.cfg.type = "unknown".toList
  · rw [if_pos ht]
    exact Or.inl ht
  · rw [if_neg ht] at ho ⊢
    split at ho
    · split at ho
      · rename_i h1 h2
        rw [if_pos h1, if_pos h2]
        exact Or.inr ⟨rfl, rfl, by simp [h.2]⟩
      · cases ho
    · cases ho

theorem buffer_effects (e : Env) (ps : Json) (s : St) (k : List Eff)
    (h : s.needBuffer = true ∧ s.decoder = true ∧ s.effects = k) (ho : (configureBuffer e ps s).2 = .ok) :
    (configureBuffer e ps s).1.needRx = true ∧ (configureBuffer e ps s).1.decoder = true ∧
      (configureBuffer e ps s).1.manager = true ∧ (configureBuffer e ps s).1.effects = k ++ [.create] := by
  have c1 : ∀ s : St, s.needBuffer = true ∧ s.decoder = true ∧ s.effects = k →
      (setName ps s).1.needBuffer = true ∧ (setName ps s).1.decoder = true ∧ (setName ps s).1.effects = k := by step
  have c2 : ∀ s : St, s.needBuffer = true ∧ s.decoder = true ∧ s.effects = k →
      (setMem ps s).1.needBuffer = true ∧ (setMem ps s).1.decoder = true ∧ (setMem ps s).1.effects = k := by step
  unfold configureBuffer at ho ⊢
  obtain ⟨_, ho, e1⟩ := andThen_ok ho
  rw [e1]
  obtain ⟨_, ho, e2⟩ := andThen_ok ho
  rw [e2]
  have h := c2 _ (c1 s h)
  generalize (setMem ps (setName ps s).1).1 = t at h ho ⊢
  unfold createManager at ho ⊢
  rw [if_pos h.1, if_pos h.2.1] at ho ⊢
  split at ho
  · rename_i n hm
    refine ⟨rfl, ?_, rfl, by simp [h.2.2]⟩
    show (stopThread t).decoder = true
    unfold stopThread
    split <;> exact h.2.1
  · cases ho

theorem rx_effects (e : Env) (ps : Json) (s : St) (k : List Eff)
    (h : s.needRx = true ∧ s.decoder = true ∧ s.manager = true ∧ s.effects = k) (ho : (configureRx e ps s).2 = .ok) :
    (configureRx e ps s).1.effects = k ++ [.start] := by
  have c1 : ∀ s : St, s.needRx = true ∧ s.decoder = true ∧ s.manager = true ∧ s.effects = k →
      (setRxType ps s).1.needRx = true ∧ (setRxType ps s).1.decoder = true ∧ (setRxType ps s).1.manager = true ∧
      (setRxType ps s).1.effects = k := by step
  have c2 : ∀ s : St, s.needRx = true ∧ s.decoder = true ∧ s.manager = true ∧ s.effects = k →
      (setAddress ps s).1.needRx = true ∧ (setAddress ps s).1.decoder = true ∧ (setAddress ps s).1.manager = true ∧
      (setAddress ps s).1.effects = k := by step
  have c3 : ∀ s : St, s.needRx = true ∧ s.decoder = true ∧ s.manager = true ∧ s.effects = k →
      (setRecvSize ps s).1.needRx = true ∧ (setRecvSize ps s).1.decoder = true ∧ (setRecvSize ps s).1.manager = true ∧
      (setRecvSize ps s).1.effects = k := by step
  have c4 : ∀ s : St, s.needRx = true ∧ s.decoder = true ∧ s.manager = true ∧ s.effects = k →
      (setPorts ps s).1.needRx = true ∧ (setPorts ps s).1.decoder = true ∧ (setPorts ps s).1.manager = true ∧
      (setPorts ps s).1.effects = k := by step
  unfold configureRx at ho ⊢
  obtain ⟨_, ho, e1⟩ := andThen_ok ho
  rw [e1]
  obtain ⟨_, ho, e2⟩ := andThen_ok ho
  rw [e2]
  obtain ⟨_, ho, e3⟩ := andThen_ok ho
  rw [e3]
  obtain ⟨_, ho, e4⟩ := andThen_ok ho
  rw [e4]
  have h := c4 _ (c3 _ (c2 _ (c1 s h)))
  generalize (setPorts ps (setRecvSize ps (setAddress ps (setRxType ps s).1).1).1).1 = t at h ho ⊢
  unfold startThread at ho ⊢
  rw [if_pos h.1, h.2.1, h.2.2.1] at ho ⊢
  simp only [Bool.and_self, if_true] at ho ⊢
  split at ho
  · cases ho
  · rename_i hr
    rw [if_neg hr]
    show t.effects ++ [.start] = _
    rw [h.2.2.2]

/-- What `configure` does once a decoder has been asked for: every acknowledged configure command loads the decoder,
creates the shared memory and starts the thread, whatever its parameters. -/
theorem C36_always (e : Env) (ps : Json) (s : St) (hn : s.needDecoder = true) (h : (configure e ps s).2 = .ok)
    (ht : (configure e ps s).1.cfg.type ≠ "unknown".toList) :
    (configure e ps s).1.effects = s.effects ++ [.load, .create, .start] := by
  have c1 : ∀ t : St, t.needDecoder = true ∧ t.effects = s.effects →
      (setDebug ps t).1.needDecoder = true ∧ (setDebug ps t).1.effects = s.effects := by step
  have c2 : ∀ t : St, t.needDecoder = true ∧ t.effects = s.effects →
      (setFrames ps t).1.needDecoder = true ∧ (setFrames ps t).1.effects = s.effects := by step
  unfold configure at h ht ⊢
  obtain ⟨_, h, e1⟩ := andThen_ok h
  rw [e1] at ht ⊢
  obtain ⟨_, h, e2⟩ := andThen_ok h
  rw [e2] at ht ⊢
  obtain ⟨_, h, e3⟩ := andThen_ok h
  rw [e3] at ht ⊢
  obtain ⟨h4, h, e4⟩ := andThen_ok h
  rw [e4] at ht ⊢
  obtain ⟨h5, h, e5⟩ := andThen_ok h
  rw [e5] at ht ⊢
  obtain ⟨h6, h, e6⟩ := andThen_ok h
  rw [e6] at ht ⊢
  have hi := ipc_effects e ps _ _ (c2 _ (c1 s ⟨hn, rfl⟩))
  have hd := decoder_effects e ps _ _ hi h4
  rcases hd with hd | hd
  · exfalso
    apply ht
    have cb : ∀ t : St, t.cfg.type = "unknown".toList → (configureBuffer e ps t).1.cfg.type = "unknown".toList := by
      intro t h
      refine andThen_pres (P := fun t => t.cfg.type = "unknown".toList) ?_ fun s h => andThen_pres
        (P := fun t => t.cfg.type = "unknown".toList) ?_ ?_
      · revert h; revert t; step
      · revert h; revert s; step
      · step
    have cr : ∀ t : St, t.cfg.type = "unknown".toList → (configureRx e ps t).1.cfg.type = "unknown".toList := by
      intro t h
      refine andThen_pres (P := fun t => t.cfg.type = "unknown".toList) ?_ fun s h => andThen_pres
        (P := fun t => t.cfg.type = "unknown".toList) ?_ fun s h => andThen_pres
        (P := fun t => t.cfg.type = "unknown".toList) ?_ fun s h => andThen_pres
        (P := fun t => t.cfg.type = "unknown".toList) ?_ ?_
      · revert h; revert t; step
      · revert h; revert s; step
      · revert h; revert s; step
      · revert h; revert s; step
      · step
    exact cr _ (cb _ hd)
  · have hb := buffer_effects e ps _ _ hd h5
    have hr := rx_effects e ps _ _ hb h6
    show (configureRx e ps _).1.effects = _
    rw [hr]
    simp

example : full.needDecoder = true ∧ full.cfg.type ≠ "unknown".toList ∧
    (configure good (.obj []) full).2 = .ok ∧
    (configure good (.obj []) full).1.effects = [.load, .create, .start, .load, .create, .start] := by decide +kernel

/-! ## C65 -/

/-- The full claim: a message that selects another decoder and configures it replaces the configuration. -/
def C65_statement : Prop :=
  ∀ s, Reach s → ∀ e l t new, findM l "decoder_type".toList = some (.str t) → t ≠ s.cfg.type →
    findM l "decoder_config".toList = some new → (configure e (.obj l) s).2 = .ok →
    ∀ k, getParam (some (configure e (.obj l) s).1.cfg.decoder) k = getParam (some new) k

/-- A receiver with a decoder with one parameter. -/
def withParam : St :=
  (configure good (.obj [("decoder_type".toList, .str "First".toList),
    ("decoder_config".toList, .obj [("packets".toList, .num 9)])]) { cfg := { path := lib } }).1

/-- The parameters of the old decoder stay and are given to the new one. -/
theorem C65_violated : ¬ C65_statement := by
  intro h
  have := h withParam (.configure _ _ _ (.init lib)) good
    [("decoder_type".toList, .str "Second".toList), ("decoder_config".toList, .obj [("size".toList, .num 4)])]
    "Second".toList (.obj [("size".toList, .num 4)]) (by simp [findM]) (by decide +kernel) (by simp [findM])
    (by decide +kernel) "packets".toList
  have := congrArg Option.isSome this
  revert this
  decide +kernel

theorem param_of_paramOr {α : Type} (ps : Json) (n : String) (read : Json → Option α) (d x : α)
    (h : paramOr ps n read d = some x) : param ps n read = some none ∧ x = d ∨ param ps n read = some (some x) := by
  unfold paramOr at h
  unfold param
  cases ps with
  | obj l =>
    simp only at h ⊢
    cases hf : findM l n.toList with
    | none => simp only [hf, Option.some.injEq] at h; simp [h]
    | some j => simp only [hf] at h; simp [h]
  | _ => cases h

/-- Where the class of the decoder is compared, path and type have already been stored: the answer is always no. -/
theorem C65_never (ps : Json) (s : St) (h1 : (setPath ps s).2 = .ok) (h2 : (setType ps (setPath ps s).1).2 = .ok) :
    newClass ps (setType ps (setPath ps s).1).1 = some false := by
  have e1 : ∃ p, paramOr ps "decoder_path" Json.asStr s.cfg.path = some p ∧ (setPath ps s).1.cfg.path = p := by
    unfold setPath at h1 ⊢
    split at h1
    · cases h1
    · next p e =>
      refine ⟨p, e, ?_⟩
      split at h1
      · cases h1
      · split at h1
        · next hp h => rw [if_neg hp, if_pos h]; exact h.symm
        · next h0 h => simp [h0, h]
  obtain ⟨p, e1, ep⟩ := e1
  generalize (setPath ps s).1 = t at ep h2 ⊢
  have e2 : ∃ y, paramOr ps "decoder_type" Json.asStr t.cfg.type = some y ∧ (setType ps t).1.cfg.type = y ∧
      (setType ps t).1.cfg.path = p := by
    unfold setType at h2 ⊢
    split at h2
    · cases h2
    · next y e =>
      refine ⟨y, e, ?_⟩
      split at h2
      · next h => simp [h, ep]
      · next h => simp [h, ep]
  obtain ⟨y, e2, ey, ep⟩ := e2
  generalize (setType ps t).1 = u at ey ep ⊢
  unfold newClass
  rcases param_of_paramOr _ _ _ _ _ e1 with ⟨q1, _⟩ | q1 <;> rcases param_of_paramOr _ _ _ _ _ e2 with ⟨q2, _⟩ | q2 <;>
    simp [q1, q2, ep, ey]

/-- What is true instead: the new parameters are taken over, the old ones stay. Missing from the full claim: an old
configuration with parameters the new one does not have; and names the message class cannot set. -/
theorem C65_partial (ps : Json) (s : St) (o old : List (Str × Json)) (h1 : (setPath ps s).2 = .ok)
    (h2 : (setType ps (setPath ps s).1).2 = .ok) (ho : param ps "decoder_config" some = some (some (.obj o)))
    (hold : (setType ps (setPath ps s).1).1.cfg.decoder = .obj old)
    (hd : msgEq (.obj o) (.obj old) = false) (hn : ∀ k ∈ o.map (·.1), Plain k ∧ '/' ∉ k) :
    (setDecoderConfig ps (setType ps (setPath ps s).1).1).2 = .ok ∧
    (setDecoderConfig ps (setType ps (setPath ps s).1).1).1.needDecoder = true ∧
    ∃ l, (setDecoderConfig ps (setType ps (setPath ps s).1).1).1.cfg.decoder = .obj l ∧
      ∀ k, findM l k = (findM o k).or (findM old k) := by
  have hc := C65_never ps s h1 h2
  generalize (setType ps (setPath ps s).1).1 = t at *
  obtain ⟨l, hu, hl⟩ := C63_partial old o hn
  have hm : mergeConfig (.obj o) (.obj old) = (.obj l, .ok) := by
    simp only [mergeConfig, hu]
  unfold setDecoderConfig
  simp only [ho, hold, hd, hc, hm, Bool.false_eq_true, if_false]
  exact ⟨trivial, trivial, l, rfl, hl⟩

/-! ## C180 -/

/-- A configuration of the decoder that is not the current one, and is taken, has the decoder loaded again. -/
theorem C180_noticed (P : Json → Prop)
    (hP : P = MessageEq.Spec.Signed ∨ P = MessageEq.Spec.Unsigned ∨ P = MessageEq.Spec.Small) (ps new : Json) (s : St)
    (ho : param ps "decoder_config" some = some (some new)) (hn : MessageEq.Spec.TidyParams P (some new))
    (hc : MessageEq.Spec.TidyParams P (some s.cfg.decoder)) (hd : ¬ MessageEq.Spec.SameParams (some new) (some s.cfg.decoder))
    (hok : (setDecoderConfig ps s).2 = .ok) : (setDecoderConfig ps s).1.needDecoder = true := by
  have hA : MessageEq.Agree P := by
    rcases hP with rfl | rfl | rfl
    · exact MessageEq.agree_signed
    · exact MessageEq.agree_unsigned
    · exact MessageEq.agree_small
  have hne : msgEq new s.cfg.decoder = false := by
    rw [← Bool.not_eq_true]
    exact fun h => hd ((MessageEq.block_iff P hA _ _ hn hc).1 h)
  unfold setDecoderConfig at hok ⊢
  simp only [ho, hne, Bool.false_eq_true, if_false] at hok ⊢
  split at hok
  · cases hok
  · rfl
  · cases hm : mergeConfig new s.cfg.decoder with
    | mk j o => cases o <;> simp [hm] at hok ⊢

theorem unchanged (ps new : Json) (s : St) (ho : param ps "decoder_config" some = some (some new)) (h : msgEq new s.cfg.decoder = true) :
    setDecoderConfig ps s = (s, .ok) := by
  unfold setDecoderConfig
  simp only [ho, h, if_true]

/-- But not if -1 is replaced by 18446744073709551615. -/
theorem C180_overlooked (s : St) (h : s.cfg.decoder = .obj [("limit".toList, .num (-1))]) :
    setDecoderConfig (.obj [("decoder_config".toList, .obj [("limit".toList, .num 18446744073709551615)])]) s = (s, .ok) := by
  have : msgEq (.obj [("limit".toList, .num 18446744073709551615)]) (.obj [("limit".toList, .num (-1))]) = true := by decide +kernel
  rw [← h] at this
  exact unchanged _ _ s (by simp [param, findM]) this

/-! ## C66 -/

/-- Frames released one after the other. -/
def releases : Nat → St → St × Out
  | 0, s => (s, .ok)
  | n + 1, s => andThen (releases n s) release

/-- The full claim: the receiver stops when the configured number of frames has been released, and without such a number
it does not stop. -/
def C66_statement : Prop :=
  ∀ s, Reach s → s.stopping = false → s.released = 0 → ∀ k, (releases k s).2 = .ok ∧
    ((releases k s).1.stopping = true ↔ ∃ n, s.cfg.frameCount = some n ∧ 0 < n ∧ n ≤ k)

theorem releases_spec (s : St) (n : Nat) (hn : s.cfg.frameCount = some n) (h0 : 0 < n) (hs : s.stopping = false)
    (hr : s.released = 0) (k : Nat) :
    (releases k s).2 = .ok ∧ (releases k s).1.cfg = s.cfg ∧ (releases k s).1.released = k ∧
      ((releases k s).1.stopping = true ↔ n ≤ k) := by
  induction k with
  | zero => exact ⟨rfl, rfl, hr, by simp only [releases, hs]; simp; omega⟩
  | succ k ih =>
    obtain ⟨h1, h2, h3, h4⟩ := ih
    unfold releases
    generalize releases k s = r at *
    obtain ⟨t, o⟩ := r
    simp only at h1 h2 h3 h4
    subst h1
    simp only [andThen, release, h2, hn, h3]
    split
    · exact ⟨rfl, rfl, rfl, by simp; omega⟩
    · next hc =>
      refine ⟨rfl, rfl, rfl, ?_⟩
      simp only [h4]
      omega

/-- With a configured number the receiver stops exactly then. Missing: receivers never given a number. -/
theorem C66_partial (s : St) (n : Nat) (hn : s.cfg.frameCount = some n) (h0 : 0 < n) (hs : s.stopping = false)
    (hr : s.released = 0) (k : Nat) : (releases k s).2 = .ok ∧ ((releases k s).1.stopping = true ↔ n ≤ k) :=
  ⟨(releases_spec s n hn h0 hs hr k).1, (releases_spec s n hn h0 hs hr k).2.2.2⟩

/-- With the number 0 it never stops. -/
theorem C66_unlimited (s : St) (hn : s.cfg.frameCount = some 0) (hs : s.stopping = false) (k : Nat) :
    (releases k s).2 = .ok ∧ (releases k s).1.stopping = false := by
  have key : (releases k s).2 = .ok ∧ (releases k s).1.stopping = false ∧ (releases k s).1.cfg = s.cfg := by
    induction k with
    | zero => exact ⟨rfl, hs, rfl⟩
    | succ k ih =>
      obtain ⟨h1, h2, h3⟩ := ih
      unfold releases
      generalize releases k s = r at *
      obtain ⟨t, o⟩ := r
      simp only at h1 h2 h3
      subst h1
      simp only [andThen, release, h3, hn]
      rw [if_neg (by simp)]
      exact ⟨rfl, h2, rfl⟩
  exact ⟨key.1, key.2.1⟩

/-- A receiver configured without a number decides with an uninitialised one, at the first released frame. -/
theorem C66_violated : ¬ C66_statement := by
  intro h
  have := (h full (.configure _ _ _ (.init lib)) (by decide +kernel) (by decide +kernel) 1).1
  revert this
  decide +kernel

example : (configure good (.obj [("frames".toList, .num 3)]) full).1.cfg.frameCount = some 3 := by decide +kernel

end Verif.Receiver
