import Verif.Props.Requests
/-! Properties C84 (a changed setting takes effect) and C85 (the settings given are stored). -/
namespace Verif.Receiver
open Verif.Ipc

/-! ## C85 -/

namespace Spec

/-- The value given for a setting, or else the old one. -/
def given {α : Type} (l : List (Str × Json)) (name : String) (read : Json → Option α) (old : α) : α :=
  match findM l name.toList with
  | none => old
  | some j => (read j).getD old

/-- The settings after an acknowledged command, other than the configuration of the decoder. -/
def stored (l : List (Str × Json)) (c : Config) : Config :=
  { c with ctrl := given l "ctrl_endpoint" Json.asStr c.ctrl,
           rx := given l "rx_endpoint" Json.asStr c.rx,
           ready := given l "frame_ready_endpoint" Json.asStr c.ready,
           release := given l "frame_release_endpoint" Json.asStr c.release,
           path := given l "decoder_path" Json.asStr c.path,
           type := given l "decoder_type" Json.asStr c.type,
           name := given l "shared_buffer_name" Json.asStr c.name,
           mem := given l "max_buffer_mem" Json.asUint64 c.mem,
           rxType := given l "rx_type" (fun j => (Json.asStr j).map rxTypeOf) c.rxType,
           address := given l "rx_address" Json.asStr c.address,
           recvSize := given l "rx_recv_buffer_size" Json.asInt c.recvSize,
           frameCount := given l "frames" (fun j => (Json.asUint j).map some) c.frameCount,
           ports := given l "rx_ports" (fun j => (Json.asStr j).map tokenize) c.ports }

end Spec
open Spec

theorem param_given {α : Type} (l : List (Str × Json)) (n : String) (read : Json → Option α) (old : α) (x : Option α)
    (h : param (.obj l) n read = some x) : given l n read old = x.getD old := by
  unfold param at h
  unfold given
  simp only at h
  split at h
  · rename_i hf
    cases h
    rw [hf]
    rfl
  · rename_i j hf
    rw [hf]
    cases hr : read j with
    | none => rw [hr] at h; cases h
    | some y => rw [hr] at h; cases h; simp [hr]

theorem paramOr_given {α : Type} (l : List (Str × Json)) (n : String) (read : Json → Option α) (old x : α)
    (h : paramOr (.obj l) n read old = some x) : given l n read old = x := by
  unfold paramOr at h
  unfold given
  simp only at h
  split at h
  · rename_i hf
    cases h
    rw [hf]
  · rename_i j hf
    rw [hf]
    simp [h]

theorem setCtrl_cfg (e : Env) (l : List (Str × Json)) (s : St) (h : (setCtrl e (.obj l) s).2 = .ok) :
    (setCtrl e (.obj l) s).1.cfg = { s.cfg with ctrl := given l "ctrl_endpoint" Json.asStr s.cfg.ctrl } := by
  unfold setCtrl at h ⊢
  cases hp : param (.obj l) "ctrl_endpoint" Json.asStr with
  | none => rw [hp] at h; cases h
  | some x =>
    rw [param_given l _ _ s.cfg.ctrl x hp]
    rw [hp] at h
    cases x with
    | none => rfl
    | some ep =>
      simp only at h ⊢
      by_cases he : ep = s.cfg.ctrl
      · rw [if_pos he]; subst he; rfl
      · rw [if_neg he] at h ⊢
        by_cases hb : e.bind ep = true
        · rw [if_pos hb]; rfl
        · rw [if_neg hb] at h; cases h

theorem setRx_cfg (e : Env) (l : List (Str × Json)) (s : St) (h : (setRx e (.obj l) s).2 = .ok) :
    (setRx e (.obj l) s).1.cfg = { s.cfg with rx := given l "rx_endpoint" Json.asStr s.cfg.rx } := by
  unfold setRx at h ⊢
  cases hp : param (.obj l) "rx_endpoint" Json.asStr with
  | none => rw [hp] at h; cases h
  | some x =>
    rw [param_given l _ _ s.cfg.rx x hp]
    rw [hp] at h
    cases x with
    | none => rfl
    | some ep =>
      simp only at h ⊢
      by_cases he : ep = s.cfg.rx
      · rw [if_pos he]; subst he; rfl
      · rw [if_neg he] at h ⊢
        by_cases hb : e.bind ep = true
        · rw [if_pos hb]; rfl
        · rw [if_neg hb] at h; cases h

theorem setReady_cfg (e : Env) (l : List (Str × Json)) (s : St) (h : (setReady e (.obj l) s).2 = .ok) :
    (setReady e (.obj l) s).1.cfg = { s.cfg with ready := given l "frame_ready_endpoint" Json.asStr s.cfg.ready } := by
  unfold setReady at h ⊢
  cases hp : param (.obj l) "frame_ready_endpoint" Json.asStr with
  | none => rw [hp] at h; cases h
  | some x =>
    rw [param_given l _ _ s.cfg.ready x hp]
    rw [hp] at h
    cases x with
    | none => rfl
    | some ep =>
      simp only at h ⊢
      by_cases he : ep = s.cfg.ready
      · rw [if_pos he]; subst he; rfl
      · rw [if_neg he] at h ⊢
        by_cases hb : e.bind ep = true
        · rw [if_pos hb]; rfl
        · rw [if_neg hb] at h; cases h

theorem setRelease_cfg (e : Env) (l : List (Str × Json)) (s : St) (h : (setRelease e (.obj l) s).2 = .ok) :
    (setRelease e (.obj l) s).1.cfg = { s.cfg with release := given l "frame_release_endpoint" Json.asStr s.cfg.release } := by
  unfold setRelease at h ⊢
  cases hp : param (.obj l) "frame_release_endpoint" Json.asStr with
  | none => rw [hp] at h; cases h
  | some x =>
    rw [param_given l _ _ s.cfg.release x hp]
    rw [hp] at h
    cases x with
    | none => rfl
    | some ep =>
      simp only at h ⊢
      by_cases he : ep = s.cfg.release
      · rw [if_pos he]; subst he; rfl
      · rw [if_neg he] at h ⊢
        by_cases hb : e.bind ep = true
        · rw [if_pos hb]; rfl
        · rw [if_neg hb] at h; cases h

theorem setPath_cfg (l : List (Str × Json)) (s : St) (h : (setPath (.obj l) s).2 = .ok) :
    (setPath (.obj l) s).1.cfg = { s.cfg with path := given l "decoder_path" Json.asStr s.cfg.path } := by
  unfold setPath at h ⊢
  cases hp : paramOr (.obj l) "decoder_path" Json.asStr s.cfg.path with
  | none => rw [hp] at h; cases h
  | some x =>
    rw [paramOr_given l _ _ s.cfg.path x hp]
    rw [hp] at h
    simp only at h ⊢
    by_cases h0 : x = []
    · rw [if_pos h0] at h; cases h
    · rw [if_neg h0]
      by_cases he : x = s.cfg.path
      · rw [if_pos he]; subst he; rfl
      · rw [if_neg he]

theorem setType_cfg (l : List (Str × Json)) (s : St) (h : (setType (.obj l) s).2 = .ok) :
    (setType (.obj l) s).1.cfg = { s.cfg with type := given l "decoder_type" Json.asStr s.cfg.type } := by
  unfold setType at h ⊢
  cases hp : paramOr (.obj l) "decoder_type" Json.asStr s.cfg.type with
  | none => rw [hp] at h; cases h
  | some x =>
    rw [paramOr_given l _ _ s.cfg.type x hp]
    simp only
    by_cases he : x = s.cfg.type
    · rw [if_pos he]; subst he; rfl
    · rw [if_neg he]

theorem setName_cfg (l : List (Str × Json)) (s : St) (h : (setName (.obj l) s).2 = .ok) :
    (setName (.obj l) s).1.cfg = { s.cfg with name := given l "shared_buffer_name" Json.asStr s.cfg.name } := by
  unfold setName at h ⊢
  cases hp : paramOr (.obj l) "shared_buffer_name" Json.asStr s.cfg.name with
  | none => rw [hp] at h; cases h
  | some x =>
    rw [paramOr_given l _ _ s.cfg.name x hp]
    simp only
    by_cases he : x = s.cfg.name
    · rw [if_pos he]; subst he; rfl
    · rw [if_neg he]

theorem setMem_cfg (l : List (Str × Json)) (s : St) (h : (setMem (.obj l) s).2 = .ok) :
    (setMem (.obj l) s).1.cfg = { s.cfg with mem := given l "max_buffer_mem" Json.asUint64 s.cfg.mem } := by
  unfold setMem at h ⊢
  cases hp : paramOr (.obj l) "max_buffer_mem" Json.asUint64 s.cfg.mem with
  | none => rw [hp] at h; cases h
  | some x =>
    rw [paramOr_given l _ _ s.cfg.mem x hp]
    simp only
    by_cases he : x = s.cfg.mem
    · rw [if_pos he]; subst he; rfl
    · rw [if_neg he]

theorem setAddress_cfg (l : List (Str × Json)) (s : St) (h : (setAddress (.obj l) s).2 = .ok) :
    (setAddress (.obj l) s).1.cfg = { s.cfg with address := given l "rx_address" Json.asStr s.cfg.address } := by
  unfold setAddress at h ⊢
  cases hp : paramOr (.obj l) "rx_address" Json.asStr s.cfg.address with
  | none => rw [hp] at h; cases h
  | some x =>
    rw [paramOr_given l _ _ s.cfg.address x hp]
    simp only
    by_cases he : x = s.cfg.address
    · rw [if_pos he]; subst he; rfl
    · rw [if_neg he]

theorem setRecvSize_cfg (l : List (Str × Json)) (s : St) (h : (setRecvSize (.obj l) s).2 = .ok) :
    (setRecvSize (.obj l) s).1.cfg = { s.cfg with recvSize := given l "rx_recv_buffer_size" Json.asInt s.cfg.recvSize } := by
  unfold setRecvSize at h ⊢
  cases hp : paramOr (.obj l) "rx_recv_buffer_size" Json.asInt s.cfg.recvSize with
  | none => rw [hp] at h; cases h
  | some x =>
    rw [paramOr_given l _ _ s.cfg.recvSize x hp]
    simp only
    by_cases he : x = s.cfg.recvSize
    · rw [if_pos he]; subst he; rfl
    · rw [if_neg he]

/-- A parameter read through a function of what is stored. -/
theorem paramOr_given_map {α β : Type} (l : List (Str × Json)) (n : String) (read : Json → Option α) (f : α → β) (d x : α) (old : β)
    (hd : f d = old) (h : paramOr (.obj l) n read d = some x) : given l n (fun j => (read j).map f) old = f x := by
  unfold paramOr at h
  unfold given
  simp only at h
  split at h
  · rename_i hf
    cases h
    rw [hf]
    exact hd.symm
  · rename_i j hf
    rw [hf]
    simp [h]

theorem setRxType_cfg (l : List (Str × Json)) (s : St) (h : (setRxType (.obj l) s).2 = .ok) :
    (setRxType (.obj l) s).1.cfg = { s.cfg with rxType := given l "rx_type" (fun j => (Json.asStr j).map rxTypeOf) s.cfg.rxType } := by
  unfold setRxType at h ⊢
  cases hp : paramOr (.obj l) "rx_type" Json.asStr (rxTypeName s.cfg.rxType) with
  | none => rw [hp] at h; cases h
  | some x =>
    rw [paramOr_given_map l _ _ rxTypeOf _ x _ (rxType_roundtrip _) hp]
    simp only
    by_cases he : rxTypeOf x = s.cfg.rxType
    · rw [if_pos he, he]
    · rw [if_neg he]

theorem setPorts_cfg (l : List (Str × Json)) (s : St) (hp : Ports s.cfg.ports) (h : (setPorts (.obj l) s).2 = .ok) :
    (setPorts (.obj l) s).1.cfg = { s.cfg with ports := given l "rx_ports" (fun j => (Json.asStr j).map tokenize) s.cfg.ports } := by
  unfold setPorts at h ⊢
  cases hc : portText s.cfg.ports with
  | none => rw [hc] at h; cases h
  | some cur =>
    rw [hc] at h
    simp only at h ⊢
    have ht : tokenize cur = s.cfg.ports := by
      obtain ⟨t, h1, h2⟩ := C43_partial s.cfg.ports (fun e => by rw [(C43_empty _).2 e] at hc; cases hc) hp
      rw [hc] at h1
      cases h1
      exact h2
    cases hq : paramOr (.obj l) "rx_ports" Json.asStr cur with
    | none => rw [hq] at h; cases h
    | some x =>
      rw [paramOr_given_map l _ _ tokenize _ x _ ht hq]
      simp only
      by_cases he : x = cur
      · rw [if_pos he, he, ht]
      · rw [if_neg he]

theorem setFrames_cfg (l : List (Str × Json)) (s : St) (h0 : findM l "frames".toList ≠ some (.num 0))
    (h : (setFrames (.obj l) s).2 = .ok) :
    (setFrames (.obj l) s).1.cfg = { s.cfg with frameCount := given l "frames" (fun j => (Json.asUint j).map some) s.cfg.frameCount } := by
  unfold setFrames at h ⊢
  cases hp : param (.obj l) "frames" Json.asUint with
  | none => rw [hp] at h; cases h
  | some x =>
    have hg : given l "frames" (fun j => (Json.asUint j).map some) s.cfg.frameCount =
        (match x with | none => s.cfg.frameCount | some n => some n) := by
      unfold param at hp
      unfold given
      simp only at hp
      split at hp
      · rename_i hf; cases hp; rw [hf]
      · rename_i j hf
        rw [hf]
        cases hr : Json.asUint j with
        | none => rw [hr] at hp; cases hp
        | some y => rw [hr] at hp; cases hp; simp [hr]
    rw [hg]
    cases x with
    | none => rfl
    | some n =>
      simp only
      have hn : n ≠ 0 := by
        rintro rfl
        unfold param at hp
        simp only at hp
        split at hp
        · cases hp
        · rename_i j hf
          cases j with
          | num i =>
            simp only [Json.asUint] at hp
            split at hp
            · simp only [Option.map_some, Option.some.injEq] at hp
              exact h0 (by rw [hf]; congr 2; omega)
            · cases hp
          | _ => simp [Json.asUint] at hp
      rw [if_neg hn]

theorem stopThread_cfg (s : St) : (stopThread s).cfg = s.cfg := by
  unfold stopThread; split <;> rfl

theorem setDebug_cfg (ps : Json) (s : St) : (setDebug ps s).1.cfg = s.cfg := by
  unfold setDebug; split <;> rfl

theorem loadDecoder_cfg (e : Env) (s : St) : (loadDecoder e s).1.cfg = s.cfg := by
  unfold loadDecoder
  (repeat' split) <;> first | rfl | exact stopThread_cfg s

theorem createManager_cfg (e : Env) (s : St) : (createManager e s).1.cfg = s.cfg := by
  unfold createManager
  (repeat' split) <;> first | rfl | exact stopThread_cfg s

theorem startThread_cfg (e : Env) (s : St) : (startThread e s).1.cfg = s.cfg := by
  unfold startThread
  (repeat' split) <;> first | rfl | exact stopThread_cfg s

theorem setDecoderConfig_cfg (ps : Json) (s : St) : ∃ d, (setDecoderConfig ps s).1.cfg = { s.cfg with decoder := d } := by
  unfold setDecoderConfig
  (repeat' split) <;> exact ⟨_, rfl⟩

theorem ports_inv (s : St) (h : Reach s) : Ports s.cfg.ports := by
  refine Reach.inv (P := fun s => Ports s.cfg.ports) ?_ ?_ ?_ ?_ s h
  · intro path; exact C43_range _
  · intro e ps
    constructor <;> first
      | (intro s h
         simp only [setPorts]
         (repeat' split) <;> first | exact h | exact C43_range _)
      | step
  · others
  · intro e; others

/-- C85, full statement: after an acknowledged configure command every setting in it has the value given, and every other
one its old value. -/
def C85_statement : Prop :=
  ∀ (e : Env) (l : List (Str × Json)) (s : St), Reach s → (configure e (.obj l) s).2 = .ok →
    ∃ d, (configure e (.obj l) s).1.cfg = { stored l s.cfg with decoder := d }

/-- C85, proved part: without a frame count of 0. Missing: that one (`C85_violated`), and the configuration of the decoder
(see C65). -/
theorem C85_partial (e : Env) (l : List (Str × Json)) (s : St) (hr : Reach s) (h : (configure e (.obj l) s).2 = .ok)
    (h0 : findM l "frames".toList ≠ some (.num 0)) :
    ∃ d, (configure e (.obj l) s).1.cfg = { stored l s.cfg with decoder := d } := by
  have hports := ports_inv s hr
  unfold configure at h ⊢
  obtain ⟨o1, h, e1⟩ := andThen_ok h
  rw [e1]
  obtain ⟨o2, h, e2⟩ := andThen_ok h
  rw [e2]
  have c1 := setDebug_cfg (.obj l) s
  generalize (setDebug (.obj l) s).1 = t1 at *
  have c2 := setFrames_cfg l t1 h0 o2
  generalize (setFrames (.obj l) t1).1 = t2 at *
  obtain ⟨o3, h, e3⟩ := andThen_ok h
  rw [e3]
  obtain ⟨o4, h, e4⟩ := andThen_ok h
  rw [e4]
  obtain ⟨o5, h, e5⟩ := andThen_ok h
  rw [e5]
  obtain ⟨o6, h, e6⟩ := andThen_ok h
  rw [e6]
  have c3 : (configureIpc e (.obj l) t2).1.cfg = { t2.cfg with
      ctrl := given l "ctrl_endpoint" Json.asStr t2.cfg.ctrl, rx := given l "rx_endpoint" Json.asStr t2.cfg.rx,
      ready := given l "frame_ready_endpoint" Json.asStr t2.cfg.ready,
      release := given l "frame_release_endpoint" Json.asStr t2.cfg.release } := by
    unfold configureIpc at o3 ⊢
    obtain ⟨a1, o3, f1⟩ := andThen_ok o3
    rw [f1]
    obtain ⟨a2, o3, f2⟩ := andThen_ok o3
    rw [f2]
    obtain ⟨a3, o3, f3⟩ := andThen_ok o3
    rw [f3]
    obtain ⟨a4, o3, f4⟩ := andThen_ok o3
    rw [f4]
    show (setRelease e (.obj l) _).1.cfg = _
    rw [setRelease_cfg e l _ a4, setReady_cfg e l _ a3, setRx_cfg e l _ a2, setCtrl_cfg e l _ a1]
  generalize (configureIpc e (.obj l) t2).1 = t3 at *
  have c4 : ∃ d, (configureDecoder e (.obj l) t3).1.cfg = { t3.cfg with
      path := given l "decoder_path" Json.asStr t3.cfg.path, type := given l "decoder_type" Json.asStr t3.cfg.type,
      decoder := d } := by
    unfold configureDecoder at o4 ⊢
    obtain ⟨a1, o4, f1⟩ := andThen_ok o4
    rw [f1]
    obtain ⟨a2, o4, f2⟩ := andThen_ok o4
    rw [f2]
    obtain ⟨a3, o4, f3⟩ := andThen_ok o4
    rw [f3, loadDecoder_cfg]
    obtain ⟨d, hd⟩ := setDecoderConfig_cfg (.obj l) (setType (.obj l) (setPath (.obj l) t3).1).1
    refine ⟨d, ?_⟩
    rw [hd, setType_cfg l _ a2, setPath_cfg l _ a1]
  obtain ⟨d, c4⟩ := c4
  generalize (configureDecoder e (.obj l) t3).1 = t4 at *
  have c5 : (configureBuffer e (.obj l) t4).1.cfg = { t4.cfg with
      name := given l "shared_buffer_name" Json.asStr t4.cfg.name, mem := given l "max_buffer_mem" Json.asUint64 t4.cfg.mem } := by
    unfold configureBuffer at o5 ⊢
    obtain ⟨a1, o5, f1⟩ := andThen_ok o5
    rw [f1]
    obtain ⟨a2, o5, f2⟩ := andThen_ok o5
    rw [f2, createManager_cfg, setMem_cfg l _ a2, setName_cfg l _ a1]
  generalize (configureBuffer e (.obj l) t4).1 = t5 at *
  have c6 : (configureRx e (.obj l) t5).1.cfg = { t5.cfg with
      rxType := given l "rx_type" (fun j => (Json.asStr j).map rxTypeOf) t5.cfg.rxType,
      address := given l "rx_address" Json.asStr t5.cfg.address,
      recvSize := given l "rx_recv_buffer_size" Json.asInt t5.cfg.recvSize,
      ports := given l "rx_ports" (fun j => (Json.asStr j).map tokenize) t5.cfg.ports } := by
    unfold configureRx at o6 ⊢
    obtain ⟨a1, o6, f1⟩ := andThen_ok o6
    rw [f1]
    obtain ⟨a2, o6, f2⟩ := andThen_ok o6
    rw [f2]
    obtain ⟨a3, o6, f3⟩ := andThen_ok o6
    rw [f3]
    obtain ⟨a4, o6, f4⟩ := andThen_ok o6
    rw [f4, startThread_cfg]
    have hp : Ports (setRecvSize (.obj l) (setAddress (.obj l) (setRxType (.obj l) t5).1).1).1.cfg.ports := by
      rw [setRecvSize_cfg l _ a3, setAddress_cfg l _ a2, setRxType_cfg l _ a1, c5, c4, c3, c2, c1]
      exact hports
    rw [setPorts_cfg l _ hp a4, setRecvSize_cfg l _ a3, setAddress_cfg l _ a2, setRxType_cfg l _ a1]
  refine ⟨d, ?_⟩
  show (configureRx e (.obj l) t5).1.cfg = _
  rw [c6, c5, c4, c3, c2, c1]
  rfl

/-- C85 is false of the code: a frame count of 0 does not replace an earlier one. -/
theorem C85_violated : ¬ C85_statement := by
  intro h
  obtain ⟨d, hd⟩ := h good [("frames".toList, .num 0)] (configure good (.obj [("frames".toList, .num 3)]) full).1
    (.configure _ _ _ (.configure _ _ _ (.init lib))) (by decide +kernel)
  have hf : (configure good (.obj [("frames".toList, .num 0)]) (configure good (.obj [("frames".toList, .num 3)]) full).1).1.cfg.frameCount =
      (stored [("frames".toList, .num 0)] (configure good (.obj [("frames".toList, .num 3)]) full).1.cfg).frameCount :=
    (congrArg Config.frameCount hd).trans rfl
  revert hf
  decide +kernel

/-- So the receiver still stops after the earlier number of frames. -/
theorem C85_frames : (releases 3 (configure good (.obj [("frames".toList, .num 0)])
    (configure good (.obj [("frames".toList, .num 3)]) full).1).1).1.stopping = true := by decide +kernel

/-- Non-vacuity: several settings at once. -/
example : (configure good (.obj [("frames".toList, .num 5), ("rx_type".toList, .str "zmq".toList), ("rx_ports".toList, .str "7,8".toList),
    ("frame_ready_endpoint".toList, .str "tcp://127.0.0.1:1".toList)]) full).2 = .ok ∧
    (fun c : Config => (c.frameCount, c.rxType, c.ports, c.ready)) (configure good (.obj [("frames".toList, .num 5), ("rx_type".toList, .str "zmq".toList),
      ("rx_ports".toList, .str "7,8".toList), ("frame_ready_endpoint".toList, .str "tcp://127.0.0.1:1".toList)]) full).1.cfg =
      (some 5, .zmq, [7, 8], "tcp://127.0.0.1:1".toList) := by decide +kernel

/-! ## C84 -/

/-- The settings of the receiver thread, of the shared memory and of the decoder are the same. -/
def RxSame (a b : Config) : Prop :=
  a.rx = b.rx ∧ a.rxType = b.rxType ∧ a.address = b.address ∧ a.recvSize = b.recvSize ∧ a.ports = b.ports

def BufferSame (a b : Config) : Prop := a.name = b.name ∧ a.mem = b.mem

def DecoderSame (a b : Config) : Prop := a.path = b.path ∧ a.type = b.type ∧ a.decoder = b.decoder

/-- Something has been set up anew between two states. -/
def Anew (x : Eff) (s s' : St) : Prop := s.effects.count x < s'.effects.count x

/-- The invariant within `configure` up to the point where things are set up. -/
def Pending (s t : St) : Prop :=
  (RxSame s.cfg t.cfg ∨ t.needRx = true) ∧ (BufferSame s.cfg t.cfg ∨ t.needBuffer = true) ∧
    (DecoderSame s.cfg t.cfg ∨ t.needDecoder = true) ∧ ∀ x, s.effects.count x ≤ t.effects.count x

/-- After the decoder has been loaded. -/
def Loaded (s t : St) : Prop :=
  (RxSame s.cfg t.cfg ∨ t.needRx = true) ∧ (BufferSame s.cfg t.cfg ∨ t.needBuffer = true) ∧
    (DecoderSame s.cfg t.cfg ∨ t.cfg.type = "unknown".toList ∨ Anew .load s t) ∧ ∀ x, s.effects.count x ≤ t.effects.count x

/-- After the shared memory has been created. -/
def Created (s t : St) : Prop :=
  (RxSame s.cfg t.cfg ∨ t.needRx = true) ∧ (BufferSame s.cfg t.cfg ∨ t.decoder = false ∨ Anew .create s t) ∧
    (DecoderSame s.cfg t.cfg ∨ t.cfg.type = "unknown".toList ∨ Anew .load s t) ∧ ∀ x, s.effects.count x ≤ t.effects.count x

macro "calm" : tactic => `(tactic| (
  intro t h
  simp only [Pending, Loaded, Created, Anew, RxSame, BufferSame, DecoderSame] at h ⊢
  simp only [setDebug, setFrames, setCtrl, setRx, setReady, setRelease, flagIpc, setPath, setType,
    setName, setMem, setRxType, setAddress, setRecvSize, setPorts]
  (repeat' split) <;> first | exact h | (simp_all; done)))

theorem pending_decoder (ps : Json) (s t : St) (h : Pending s t) (ho : (setDecoderConfig ps t).2 = .ok) :
    Pending s (setDecoderConfig ps t).1 := by
  unfold setDecoderConfig at ho ⊢
  simp only [Pending] at h ⊢
  (repeat' split) <;> first | exact h | exact ⟨h.1, h.2.1, Or.inr rfl, h.2.2.2⟩ | skip
  all_goals (simp_all)

theorem stopThread_effects (s : St) : (stopThread s).effects = s.effects := by
  unfold stopThread; split <;> rfl

theorem stopThread_needs (s : St) : (stopThread s).needRx = s.needRx ∧ (stopThread s).needBuffer = s.needBuffer := by
  unfold stopThread; split <;> exact ⟨rfl, rfl⟩

theorem count_snoc (l : List Eff) (x y : Eff) : l.count x ≤ (l ++ [y]).count x := by
  rw [List.count_append]; omega

theorem count_snoc_self (l : List Eff) (x : Eff) : l.count x < (l ++ [x]).count x := by
  rw [List.count_append]; simp

theorem loaded_load (e : Env) (s t : St) (h : Pending s t) (ho : (loadDecoder e t).2 = .ok) : Loaded s (loadDecoder e t).1 := by
  obtain ⟨h1, h2, h3, h4⟩ := h
  unfold loadDecoder at ho ⊢
  by_cases hn : t.needDecoder = true
  · rw [if_pos hn] at ho ⊢
    by_cases hu : t.cfg.type = "unknown".toList
    · rw [if_pos hu] at ho ⊢
      exact ⟨h1, h2, Or.inr (Or.inl hu), h4⟩
    · rw [if_neg hu] at ho ⊢
      by_cases hl : e.load (slashed t.cfg.path) t.cfg.type = true
      · rw [if_pos hl] at ho ⊢
        by_cases hi : e.init t.cfg.decoder = true
        · rw [if_pos hi]
          refine ⟨Or.inr rfl, Or.inr rfl, Or.inr (Or.inr ?_), fun x => Nat.le_trans (h4 x) (count_snoc _ _ _)⟩
          exact Nat.lt_of_le_of_lt (h4 _) (count_snoc_self _ _)
        · rw [if_neg hi] at ho; cases ho
      · rw [if_neg hl] at ho; cases ho
  · rw [if_neg hn]
    exact ⟨h1, h2, Or.inl (h3.resolve_right hn), h4⟩

theorem created_create (e : Env) (s t : St) (h : Loaded s t) (ho : (createManager e t).2 = .ok) :
    Created s (createManager e t).1 := by
  obtain ⟨h1, h2, h3, h4⟩ := h
  unfold createManager at ho ⊢
  by_cases hn : t.needBuffer = true
  · rw [if_pos hn] at ho ⊢
    by_cases hd : t.decoder = true
    · rw [if_pos hd] at ho ⊢
      cases hm : e.manager t.cfg.name t.cfg.mem with
      | none => rw [hm] at ho; cases ho
      | some n =>
        refine ⟨Or.inr rfl, Or.inr (Or.inr (Nat.lt_of_le_of_lt (h4 _) (count_snoc_self _ _))), ?_,
          fun x => Nat.le_trans (h4 x) (count_snoc _ _ _)⟩
        have hc := stopThread_cfg t
        rcases h3 with h3 | h3 | h3
        · exact Or.inl (by rw [← hc] at h3; exact h3)
        · exact Or.inr (Or.inl (by rw [← hc] at h3; exact h3))
        · exact Or.inr (Or.inr (Nat.lt_of_lt_of_le h3 (count_snoc _ _ _)))
    · rw [if_neg hd]
      exact ⟨h1, Or.inr (Or.inl (by simpa using hd)), h3, h4⟩
  · rw [if_neg hn]
    exact ⟨h1, Or.inl (h2.resolve_right hn), h3, h4⟩

/-- C84: when an acknowledged configure command has changed a setting of the decoder, a decoder is loaded; of the shared
memory, it is created anew if there is a decoder; of the receiver thread, a thread is started as the last step if there are a
decoder and shared memory. -/
theorem C84 (e : Env) (ps : Json) (s : St) (h : (configure e ps s).2 = .ok) :
    (¬ DecoderSame s.cfg (configure e ps s).1.cfg → (configure e ps s).1.cfg.type ≠ "unknown".toList →
      Anew .load s (configure e ps s).1) ∧
    (¬ BufferSame s.cfg (configure e ps s).1.cfg → (configure e ps s).1.decoder = true → Anew .create s (configure e ps s).1) ∧
    (¬ RxSame s.cfg (configure e ps s).1.cfg → (configure e ps s).1.decoder = true → (configure e ps s).1.manager = true →
      Anew .start s (configure e ps s).1 ∧ (configure e ps s).1.effects.getLast? = some .start ∧
      (configure e ps s).1.thread = true) := by
  have p0 : Pending s s := ⟨Or.inl ⟨rfl, rfl, rfl, rfl, rfl⟩, Or.inl ⟨rfl, rfl⟩, Or.inl ⟨rfl, rfl, rfl⟩, fun _ => Nat.le_refl _⟩
  unfold configure at h ⊢
  obtain ⟨o1, h, e1⟩ := andThen_ok h
  rw [e1]
  obtain ⟨o2, h, e2⟩ := andThen_ok h
  rw [e2]
  obtain ⟨o3, h, e3⟩ := andThen_ok h
  rw [e3]
  obtain ⟨o4, h, e4⟩ := andThen_ok h
  rw [e4]
  obtain ⟨o5, h, e5⟩ := andThen_ok h
  rw [e5]
  obtain ⟨o6, h, e6⟩ := andThen_ok h
  rw [e6]
  have k1 : ∀ t, Pending s t → Pending s (setDebug ps t).1 := by calm
  have k2 : ∀ t, Pending s t → Pending s (setFrames ps t).1 := by calm
  have k3 : ∀ t, Pending s t → Pending s (setCtrl e ps t).1 := by calm
  have k4 : ∀ t, Pending s t → Pending s (setRx e ps t).1 := by calm
  have k5 : ∀ t, Pending s t → Pending s (setReady e ps t).1 := by calm
  have k6 : ∀ t, Pending s t → Pending s (setRelease e ps t).1 := by calm
  have k7 : ∀ t, Pending s t → Pending s (flagIpc t).1 := by calm
  have k8 : ∀ t, Pending s t → Pending s (setPath ps t).1 := by calm
  have k9 : ∀ t, Pending s t → Pending s (setType ps t).1 := by calm
  have k10 : ∀ t, Loaded s t → Loaded s (setName ps t).1 := by calm
  have k11 : ∀ t, Loaded s t → Loaded s (setMem ps t).1 := by calm
  have k12 : ∀ t, Created s t → Created s (setRxType ps t).1 := by calm
  have k13 : ∀ t, Created s t → Created s (setAddress ps t).1 := by calm
  have k14 : ∀ t, Created s t → Created s (setRecvSize ps t).1 := by calm
  have k15 : ∀ t, Created s t → Created s (setPorts ps t).1 := by calm
  have p2 := k2 _ (k1 s p0)
  generalize (setFrames ps (setDebug ps s).1).1 = t2 at *
  have p3 : Pending s (configureIpc e ps t2).1 :=
    andThen_pres (P := Pending s) (k3 { t2 with ipcOk := false } p2) fun t h => andThen_pres (P := Pending s) (k4 t h) fun t h =>
      andThen_pres (P := Pending s) (k5 t h) fun t h => andThen_pres (P := Pending s) (k6 t h) k7
  generalize (configureIpc e ps t2).1 = t3 at *
  have p4 : Loaded s (configureDecoder e ps t3).1 := by
    unfold configureDecoder at o4 ⊢
    obtain ⟨a1, o4, f1⟩ := andThen_ok o4
    rw [f1]
    obtain ⟨a2, o4, f2⟩ := andThen_ok o4
    rw [f2]
    obtain ⟨a3, o4, f3⟩ := andThen_ok o4
    rw [f3]
    exact loaded_load e s _ (pending_decoder ps s _ (k9 _ (k8 _ p3)) a3) o4
  generalize (configureDecoder e ps t3).1 = t4 at *
  have p5 : Created s (configureBuffer e ps t4).1 := by
    unfold configureBuffer at o5 ⊢
    obtain ⟨a1, o5, f1⟩ := andThen_ok o5
    rw [f1]
    obtain ⟨a2, o5, f2⟩ := andThen_ok o5
    rw [f2]
    exact created_create e s _ (k11 _ (k10 _ p4)) o5
  generalize (configureBuffer e ps t4).1 = t5 at *
  show (¬ DecoderSame s.cfg (configureRx e ps t5).1.cfg → (configureRx e ps t5).1.cfg.type ≠ "unknown".toList →
      Anew .load s (configureRx e ps t5).1) ∧
    (¬ BufferSame s.cfg (configureRx e ps t5).1.cfg → (configureRx e ps t5).1.decoder = true → Anew .create s (configureRx e ps t5).1) ∧
    (¬ RxSame s.cfg (configureRx e ps t5).1.cfg → (configureRx e ps t5).1.decoder = true → (configureRx e ps t5).1.manager = true →
      Anew .start s (configureRx e ps t5).1 ∧ (configureRx e ps t5).1.effects.getLast? = some .start ∧
      (configureRx e ps t5).1.thread = true)
  clear e1 e2 e3 e4 e5 e6 h o1 o2 o3 o4 o5 p0 p2 p3 p4
  unfold configureRx at o6 ⊢
  obtain ⟨a1, o6, f1⟩ := andThen_ok o6
  rw [f1]
  obtain ⟨a2, o6, f2⟩ := andThen_ok o6
  rw [f2]
  obtain ⟨a3, o6, f3⟩ := andThen_ok o6
  rw [f3]
  obtain ⟨a4, o6, f4⟩ := andThen_ok o6
  rw [f4]
  obtain ⟨h1, h2, h3, h4⟩ := k15 _ (k14 _ (k13 _ (k12 _ p5)))
  generalize (setPorts ps _).1 = t at *
  clear k1 k2 k3 k4 k5 k6 k7 k8 k9 k10 k11 k12 k13 k14 k15
  unfold startThread at o6 ⊢
  by_cases hn : t.needRx = true
  · rw [if_pos hn] at o6 ⊢
    by_cases hd : (t.decoder && t.manager) = true
    · rw [if_pos hd] at o6 ⊢
      by_cases hi : t.cfg.rxType = .illegal
      · rw [if_pos hi] at o6; cases o6
      · rw [if_neg hi]
        refine ⟨fun c1 c2 => ?_, fun c1 c2 => ?_, fun _ _ _ => ⟨?_, by simp, rfl⟩⟩
        · rcases h3 with h3 | h3 | h3
          · exact absurd h3 c1
          · exact absurd h3 c2
          · exact Nat.lt_of_lt_of_le h3 (count_snoc _ _ _)
        · rcases h2 with h2 | h2 | h2
          · exact absurd h2 c1
          · rw [show t.decoder = true from c2] at h2; cases h2
          · exact Nat.lt_of_lt_of_le h2 (count_snoc _ _ _)
        · exact Nat.lt_of_le_of_lt (h4 _) (count_snoc_self _ _)
    · rw [if_neg hd]
      refine ⟨fun c1 c2 => ?_, fun c1 c2 => ?_, fun _ c2 c3 => ?_⟩
      · exact (h3.resolve_left c1).resolve_left c2
      · rcases h2.resolve_left c1 with h2 | h2
        · rw [show t.decoder = true from c2] at h2; cases h2
        · exact h2
      · exact absurd (by rw [show t.decoder = true from c2, show t.manager = true from c3]; rfl) hd
  · rw [if_neg hn]
    refine ⟨fun c1 c2 => ?_, fun c1 c2 => ?_, fun c1 _ _ => ?_⟩
    · exact (h3.resolve_left c1).resolve_left c2
    · rcases h2.resolve_left c1 with h2 | h2
      · rw [show t.decoder = true from c2] at h2; cases h2
      · exact h2
    · exact absurd (h1.resolve_right hn) c1

/-- Non-vacuity: a new RX endpoint starts a thread, a new amount of memory creates the shared memory anew. -/
example : (configure good (texts [("rx_endpoint", "inproc://other")]) { full with needDecoder := false, needBuffer := false, needRx := false }).1.effects =
      full.effects ++ [.start] ∧
    (configure good (.obj [("max_buffer_mem".toList, .num 4096)]) { full with needDecoder := false, needBuffer := false, needRx := false }).1.effects =
      full.effects ++ [.create, .start] := by decide +kernel

end Verif.Receiver
