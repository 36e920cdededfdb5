import Verif.Props.Receiver
import Verif.Model.ProcessorCtrl

/-!
C38: every control request gets exactly one reply; C67: requests read no uninitialised data.
-/
namespace Verif.Receiver
open Verif.Ipc

/-- One reply, to the sender, with the id of the request. -/
def Answered (client : Str) (m : Option Msg) (replies : List Reply) : Prop :=
  ∃ r, replies = [r] ∧ r.client = client ∧ ∀ q id, m = some q → q.id = some id → r.id = id

/-- The full claim for the receiver: whatever is received in whatever state. -/
def C38_statement : Prop :=
  ∀ s, Reach s → ∀ T e e2 client doc,
    Answered client (doc.bind (decode T false)) (handleCtrl T e e2 client doc s).replies

/-- If the handler returns, there is exactly one reply, to the sender and with the id of the request. Missing: exceptions
other than message exceptions and, in configure, receiver exceptions; and messages whose id is not a number. -/
theorem C38_partial (T : Times) (e : Env) (e2 : Env2) (client : Str) (doc : Option Json) (s : St)
    (h : (handleCtrl T e e2 client doc s).out = .ok) :
    Answered client (doc.bind (decode T false)) (handleCtrl T e e2 client doc s).replies := by
  unfold handleCtrl at h ⊢
  cases hm : doc.bind (decode T false) with
  | none => exact ⟨_, rfl, rfl, fun q id hq => by cases hq⟩
  | some m =>
    simp only [hm] at h ⊢
    cases hi : m.id with
    | none => simp [hi] at h
    | some id =>
      simp only [hi] at h ⊢
      have key : ∀ r : Reply, r.client = client → r.id = id → Answered client (some m) [r] :=
        fun r h1 h2 => ⟨r, rfl, h1, fun q i hq hi' => by cases hq; rw [hi] at hi'; cases hi'; exact h2⟩
      split
      · next hc =>
        rw [if_pos hc] at h
        cases hcm : command e e2 (m.params.getD (.obj [])) m.val s with
        | none => exact key _ rfl rfl
        | some r =>
          simp only [hcm] at h ⊢
          obtain ⟨t, o⟩ := r
          cases o with
          | ok => exact key _ rfl rfl
          | message => exact key _ rfl rfl
          | receiver =>
            by_cases hv : m.val = .configure
            · simp only [handled, if_pos hv]
              exact key _ rfl rfl
            · simp [handled, if_neg hv] at h
          | other => simp [handled] at h
          | ub => simp [handled] at h
      · exact key _ rfl rfl

/-- Without return there is no reply at all. -/
theorem C38_none (T : Times) (e : Env) (e2 : Env2) (client : Str) (doc : Option Json) (s : St)
    (h : (handleCtrl T e e2 client doc s).out ≠ .ok) : (handleCtrl T e e2 client doc s).replies = [] := by
  unfold handleCtrl at h ⊢
  split
  · next hm => simp [hm] at h
  · next m hm =>
    simp only [hm] at h
    split
    · rfl
    · next id hi =>
      simp only [hi] at h
      split
      · next hc =>
        rw [if_pos hc] at h
        split
        · next r hcm =>
          simp only [hcm] at h
          obtain ⟨t, o⟩ := r
          cases o with
          | receiver =>
            by_cases hv : m.val = .configure
            · simp [handled, if_pos hv] at h
            · simp [handled, if_neg hv]
          | ok => simp [handled] at h
          | message => simp [handled] at h
          | other => rfl
          | ub => rfl
        · next hcm => simp [hcm] at h
      · next hc => simp [if_neg hc] at h

/-- The reply says how the command ended: positive exactly if a command was recognised and its method returned. -/
theorem C38_ack (T : Times) (e : Env) (e2 : Env2) (client : Str) (doc : Option Json) (s : St) (r : Reply)
    (h : r ∈ (handleCtrl T e e2 client doc s).replies) :
    (r.type = .ack ∨ r.type = .nack) ∧
    (r.type = .ack ↔ ∃ m t, doc.bind (decode T false) = some m ∧ m.type = .cmd ∧
      command e e2 (m.params.getD (.obj [])) m.val s = some (t, .ok)) ∧
    (∀ m, doc.bind (decode T false) = some m → m.type = .cmd → r.val = m.val) := by
  unfold handleCtrl at h
  cases hm : doc.bind (decode T false) with
  | none =>
    simp only [hm, List.mem_singleton] at h
    subst h
    exact ⟨.inr rfl, ⟨fun x => (by cases x), fun ⟨_, _, x, _⟩ => (by cases x)⟩, fun m x => (by cases x)⟩
  | some m =>
    simp only [hm] at h
    cases hi : m.id with
    | none => simp [hi] at h
    | some id =>
      simp only [hi] at h
      by_cases hc : m.type = .cmd
      · rw [if_pos hc] at h
        cases hcm : command e e2 (m.params.getD (.obj [])) m.val s with
        | none =>
          simp only [hcm, List.mem_singleton] at h
          subst h
          refine ⟨.inr rfl, ⟨fun x => (by cases x), ?_⟩, fun q x _ => by cases x; rfl⟩
          rintro ⟨q, t, x, _, y⟩
          cases x
          rw [hcm] at y
          cases y
        | some u =>
          obtain ⟨t, o⟩ := u
          simp only [hcm] at h
          have no : o ≠ .ok → ¬ ∃ q t, some m = some q ∧ q.type = .cmd ∧
              command e e2 (q.params.getD (.obj [])) q.val s = some (t, .ok) := by
            rintro ho ⟨q, t, x, _, y⟩
            cases x
            rw [hcm] at y
            cases y
            exact ho rfl
          cases o with
          | ok =>
            simp only [handled, List.mem_singleton] at h
            subst h
            exact ⟨.inl rfl, ⟨fun _ => ⟨m, t, rfl, hc, hcm⟩, fun _ => rfl⟩, fun q x _ => by cases x; rfl⟩
          | message =>
            simp only [handled, List.mem_singleton] at h
            subst h
            exact ⟨.inr rfl, ⟨fun x => (by cases x), fun x => absurd x (no (by simp))⟩, fun q x _ => by cases x; rfl⟩
          | receiver =>
            by_cases hv : m.val = .configure
            · simp only [handled, if_pos hv, List.mem_singleton] at h
              subst h
              exact ⟨.inr rfl, ⟨fun x => (by cases x), fun x => absurd x (no (by simp))⟩, fun q x _ => by cases x; rfl⟩
            · simp [handled, if_neg hv] at h
          | other => simp [handled] at h
          | ub => simp [handled] at h
      · rw [if_neg hc] at h
        simp only [List.mem_singleton] at h
        subst h
        refine ⟨.inr rfl, ⟨fun x => (by cases x), ?_⟩, fun q x y => by cases x; exact absurd y hc⟩
        rintro ⟨q, t, x, y, _⟩
        cases x
        exact absurd y hc

/-! ### When configure returns -/

/-- Exceptions that become a negative reply. -/
def Fine (o : Out) : Prop := o ≠ .other ∧ o ≠ .ub

theorem fine_andThen {P : St → Prop} {r : St × Out} {f : St → St × Out} (h : Fine r.2 ∧ P r.1)
    (hf : ∀ s, P s → Fine (f s).2) : Fine (andThen r f).2 := by
  obtain ⟨s, o⟩ := r
  cases o <;> first | exact hf s h.2 | exact h.1

/-- What a configure command needs in order to be answered. -/
structure Harmless (e : Env) (ps : Json) : Prop where
  memory : ∀ n m, e.manager n m ≠ none
  path : ∀ p d, paramOr ps "decoder_path" Json.asStr d = some p → d ≠ [] → p ≠ []
  config : ∀ j, param ps "decoder_config" some = some (some j) →
    ∃ o : List (Str × Json), j = .obj o ∧ ∀ k ∈ o.map (·.1), Plain k ∧ '/' ∉ k

/-- What it needs of the current configuration. -/
def Sound (s : St) : Prop := s.cfg.path ≠ [] ∧ s.cfg.ports ≠ [] ∧ ∃ l, s.cfg.decoder = .obj l

theorem mergeConfig_obj (o old : List (Str × Json)) (h : ∀ k ∈ o.map (·.1), Plain k ∧ '/' ∉ k) :
    ∃ l, mergeConfig (.obj o) (.obj old) = (.obj l, .ok) := by
  obtain ⟨l, hu, _⟩ := C63_partial old o h
  exact ⟨l, by simp only [mergeConfig, hu]⟩

theorem setDecoderConfig_fine {e : Env} {ps : Json} (h : Harmless e ps) (s : St) (hs : Sound s) :
    Fine (setDecoderConfig ps s).2 ∧ Sound (setDecoderConfig ps s).1 := by
  obtain ⟨h1, h2, old, h3⟩ := hs
  unfold setDecoderConfig
  split
  · exact ⟨⟨by simp, by simp⟩, h1, h2, old, h3⟩
  · exact ⟨⟨by simp, by simp⟩, h1, h2, old, h3⟩
  · next new hn =>
    obtain ⟨o, rfl, ho⟩ := h.config new hn
    split
    · exact ⟨⟨by simp, by simp⟩, h1, h2, old, h3⟩
    · split
      · exact ⟨⟨by simp, by simp⟩, h1, h2, old, h3⟩
      · exact ⟨⟨by simp, by simp⟩, h1, h2, o, rfl⟩
      · obtain ⟨l, hm⟩ := mergeConfig_obj o old ho
        rw [h3, hm]
        exact ⟨⟨by simp, by simp⟩, h1, h2, l, rfl⟩

theorem setPath_fine {e : Env} {ps : Json} (h : Harmless e ps) (s : St) (hs : Sound s) :
    Fine (setPath ps s).2 ∧ Sound (setPath ps s).1 := by
  obtain ⟨h1, h2, h3⟩ := hs
  unfold setPath
  split
  · exact ⟨⟨by simp, by simp⟩, h1, h2, h3⟩
  · next p hp =>
    have hne := h.path p _ hp h1
    rw [if_neg hne]
    split
    · exact ⟨⟨by simp, by simp⟩, h1, h2, h3⟩
    · exact ⟨⟨by simp, by simp⟩, hne, h2, h3⟩

/-- Steps that keep what is needed and end well. -/
macro "fineStep" : tactic => `(tactic| (
  intro s hs
  obtain ⟨h1, h2, h3⟩ := hs
  simp only [setDebug, setFrames, setCtrl, setRx, setReady, setRelease, flagIpc, setType, loadDecoder, setName, setMem,
    setRxType, setAddress, setRecvSize, finish, stopThread]
  (repeat' split) <;> exact ⟨⟨by simp, by simp⟩, h1, h2, h3⟩))

theorem createManager_fine {e : Env} {ps : Json} (h : Harmless e ps) (s : St) (hs : Sound s) :
    Fine (createManager e s).2 ∧ Sound (createManager e s).1 := by
  obtain ⟨h1, h2, h3⟩ := hs
  simp only [createManager, stopThread]
  split
  · split
    · split
      · split <;> exact ⟨⟨by simp, by simp⟩, h1, h2, h3⟩
      · next hn => exact absurd hn (h.memory _ _)
    · exact ⟨⟨by simp, by simp⟩, h1, h2, h3⟩
  · exact ⟨⟨by simp, by simp⟩, h1, h2, h3⟩

theorem good_andThen {P : St → Prop} {r : St × Out} {f : St → St × Out} (h : Fine r.2 ∧ P r.1)
    (hf : ∀ s, P s → Fine (f s).2 ∧ P (f s).1) : Fine (andThen r f).2 ∧ P (andThen r f).1 :=
  ⟨fine_andThen h (fun s hs => (hf s hs).1), andThen_pres h.2 (fun s hs => (hf s hs).2)⟩

/-- Configure commands are answered if the shared memory can be created, no path is empty, the port list is not empty
and the names of the decoder parameters can be set. -/
theorem C38_configure_partial (e : Env) (ps : Json) (s : St) (h : Harmless e ps) (hs : Sound s) :
    (configure e ps s).2 ≠ .other ∧ (configure e ps s).2 ≠ .ub := by
  have unf : ∀ s, Sound s → Sound { s with ipcOk := false } := fun s hs => hs
  refine fine_andThen (P := Sound) ((by fineStep : ∀ s, Sound s → Fine (setDebug ps s).2 ∧ Sound (setDebug ps s).1) s hs)
    fun s hs => fine_andThen (P := Sound)
    ((by fineStep : ∀ s, Sound s → Fine (setFrames ps s).2 ∧ Sound (setFrames ps s).1) s hs)
    fun s hs => fine_andThen (P := Sound) ?_ fun s hs => fine_andThen (P := Sound) ?_ fun s hs =>
    fine_andThen (P := Sound) ?_ fun s hs => fine_andThen (P := fun _ => True) ?_ fun s hs => ⟨by simp [finish], by simp [finish]⟩
  · exact good_andThen ((by fineStep : ∀ s, Sound s → Fine (setCtrl e ps s).2 ∧ Sound (setCtrl e ps s).1) _ (unf s hs))
      fun s hs => good_andThen ((by fineStep : ∀ s, Sound s → Fine (setRx e ps s).2 ∧ Sound (setRx e ps s).1) s hs)
      fun s hs => good_andThen ((by fineStep : ∀ s, Sound s → Fine (setReady e ps s).2 ∧ Sound (setReady e ps s).1) s hs)
      fun s hs => good_andThen ((by fineStep : ∀ s, Sound s → Fine (setRelease e ps s).2 ∧ Sound (setRelease e ps s).1) s hs)
      (by fineStep)
  · exact good_andThen (setPath_fine h s hs)
      fun s hs => good_andThen ((by fineStep : ∀ s, Sound s → Fine (setType ps s).2 ∧ Sound (setType ps s).1) s hs)
      fun s hs => good_andThen (setDecoderConfig_fine h s hs) (by fineStep)
  · exact good_andThen ((by fineStep : ∀ s, Sound s → Fine (setName ps s).2 ∧ Sound (setName ps s).1) s hs)
      fun s hs => good_andThen ((by fineStep : ∀ s, Sound s → Fine (setMem ps s).2 ∧ Sound (setMem ps s).1) s hs)
      (createManager_fine h)
  · refine ⟨fine_andThen ((by fineStep : ∀ s, Sound s → Fine (setRxType ps s).2 ∧ Sound (setRxType ps s).1) s hs)
      fun s hs => fine_andThen ((by fineStep : ∀ s, Sound s → Fine (setAddress ps s).2 ∧ Sound (setAddress ps s).1) s hs)
      fun s hs => fine_andThen ((by fineStep : ∀ s, Sound s → Fine (setRecvSize ps s).2 ∧ Sound (setRecvSize ps s).1) s hs)
      fun s hs => fine_andThen (P := fun _ => True) ⟨?_, trivial⟩ fun s _ => ?_, trivial⟩
    · unfold setPorts
      split
      · next hp => exact absurd ((C43_empty _).1 hp) hs.2.1
      · split
        · exact ⟨by simp, by simp⟩
        · split <;> exact ⟨by simp, by simp⟩
    · unfold startThread
      split
      · split
        · split <;> exact ⟨by simp, by simp⟩
        · exact ⟨by simp, by simp⟩
      · exact ⟨by simp, by simp⟩

/-! ### Requests without reply -/

/-- A clock for the examples. -/
def clock : Times := ⟨fun _ => "t".toList, fun _ => some 1⟩

/-- A configure request with an id. -/
def request (val : String) (ps : Json) : Json :=
  .obj [("msg_type".toList, .str "cmd".toList), ("msg_val".toList, .str val.toList), ("id".toList, .num 7),
    ("timestamp".toList, .str "t".toList), ("params".toList, ps)]

def calm : Env2 := ⟨.ok, .ok, .ok, .ok⟩

theorem not_answered (client : Str) (m : Option Msg) (l : List Reply) (h : l.length ≠ 1) : ¬ Answered client m l := by
  rintro ⟨r, rfl, _⟩
  exact h rfl

/-- The shared memory cannot be created: no reply. -/
theorem C38_violated : ¬ C38_statement := by
  intro h
  exact not_answered _ _ _ (by decide +kernel) (h { cfg := { path := lib } } (.init lib) clock
    { good with manager := fun _ _ => none } calm "c".toList (some (request "configure" fullConfig)))

/-- A port list without valid port is acknowledged; the next configure command gets no reply. -/
theorem C38_violated_ports :
    (configure good (texts [("rx_ports", "0")]) { cfg := { path := lib } }).2 = .ok ∧
    (handleCtrl clock good calm "c".toList (some (request "configure" (.obj [])))
      (configure good (texts [("rx_ports", "0")]) { cfg := { path := lib } }).1).replies.length = 0 := by decide +kernel

/-- A decoder parameter with a name of one character: no reply. -/
theorem C38_violated_name :
    (handleCtrl clock good calm "c".toList
      (some (request "configure" (.obj [("decoder_config".toList, .obj [(['n'], .num 1)])])))
      { cfg := { path := lib } }).replies.length = 0 := by decide +kernel

/-- An id that is not a number: an uninitialised id is used. -/
theorem C38_id_ub : (handleCtrl clock good calm "c".toList
    (some (.obj [("msg_type".toList, .str "cmd".toList), ("msg_val".toList, .str "status".toList),
      ("id".toList, .str "7".toList)])) full).out = .ub := by decide +kernel

/-- Non-vacuity of `C38_partial`: an acknowledged request and three refused ones. -/
example : (handleCtrl clock good calm "c".toList (some (request "configure" fullConfig)) { cfg := { path := lib } }).replies =
    [⟨"c".toList, .ack, .configure, 7⟩] := by decide +kernel

example : (handleCtrl clock { good with load := fun _ _ => false } calm "c".toList (some (request "configure" fullConfig))
    { cfg := { path := lib } }).replies = [⟨"c".toList, .nack, .configure, 7⟩] := by decide +kernel

example : (handleCtrl clock good calm "c".toList (some (request "execute" (.obj []))) full).replies =
    [⟨"c".toList, .nack, .execute, 7⟩] := by decide +kernel

example : ((handleCtrl clock good calm "c".toList none full).replies.map Reply.client) = ["c".toList] := by decide +kernel

example : Sound full ∧ Harmless good (.obj []) := by
  refine ⟨⟨by decide +kernel, by decide +kernel, [], rfl⟩, ⟨by simp [good], ?_, ?_⟩⟩
  · intro p d h hd
    simp only [paramOr, findM, Option.some.injEq] at h
    exact h ▸ hd
  · intro j h
    simp [param, findM] at h

/-! ## C67 -/

/-- The full claim: status and configuration requests never read uninitialised data. -/
def C67_statement : Prop :=
  ∀ s, Reach s → (getStatus calm s).2 ≠ .ub ∧ (getConfig calm s).2 ≠ .ub

/-- Once the shared memory has been created and a number of frames has been configured. -/
theorem C67_partial (e : Env2) (s : St) (n k : Nat) (ht : s.total = some n) (hf : s.cfg.frameCount = some k)
    (h1 : e.status ≠ .ub) (h2 : e.config ≠ .ub) : (getStatus e s).2 ≠ .ub ∧ (getConfig e s).2 ≠ .ub := by
  constructor
  · unfold getStatus
    split
    · simp [ht]
    · next o _ => exact h1
  · unfold getConfig
    split
    · split
      · simp
      · simp [hf]
    · next o _ =>
      split
      · exact h2
      · simp

/-- A status request before the shared memory has been created reports an uninitialised number of buffers, and a
configuration request an uninitialised number of frames even when the receiver is completely configured. -/
theorem C67_violated : ¬ C67_statement := by
  intro h
  exact (h full (.configure _ _ _ (.init lib))).2 (by decide +kernel)

theorem C67_violated_status : (getStatus calm { cfg := { path := lib } }).2 = .ub := by decide +kernel

/-- The number of buffers is known exactly since the shared memory has been created. -/
theorem C67_total (s : St) (h : Reach s) : s.manager = true → s.total ≠ none := by
  refine Reach.inv (P := fun s => s.manager = true → s.total ≠ none) ?_ ?_ ?_ ?_ s h
  · simp
  · intro e ps; steps
  · others
  · intro e; others

end Verif.Receiver

namespace Verif.ProcessorCtrl
open Verif.Ipc

/-- One reply, to the sender, with the id of the request. -/
def Answered (client : Str) (m : Option Msg) (replies : List Reply) : Prop :=
  ∃ r, replies = [r] ∧ r.client = some client ∧ ∀ q id, m = some q → q.id = some id → r.id = id

/-- The full claim for the processor. -/
def C38_processor_statement : Prop :=
  ∀ T run client doc, Answered client (doc.bind (decode T true)) (handleCtrl T run client doc).1

/-- A legal message whose command does not throw gets exactly one reply. Missing: illegal messages and commands that
throw. -/
theorem C38_processor_partial (T : Times) (run : MsgVal → Out) (client : Str) (doc : Option Json) (m : Msg)
    (hm : doc.bind (decode T true) = some m) (hr : run m.val = .ok ∨ run m.val = .nack) :
    Answered client (doc.bind (decode T true)) (handleCtrl T run client doc).1 := by
  have hid : m.id ≠ none := by
    cases doc with
    | none => simp at hm
    | some d => exact (C62_strict T d m hm).2.2.2.1
  unfold handleCtrl
  rw [hm]
  have key : ∀ r : Reply, r.client = some client → r.id = m.id.getD 0 → Answered client (some m) [r] :=
    fun r h1 h2 => ⟨r, rfl, h1, fun q i hq hi => by cases hq; rw [h2, hi]; rfl⟩
  simp only
  split
  · rcases hr with hr | hr <;> rw [hr] <;> exact key _ rfl rfl
  · exact key _ rfl rfl

/-- The frame processor acknowledges exactly the commands it knows that succeed; everything else it decodes and answers to
the client is refused. -/
theorem C38_processor_ack (T : Times) (run : MsgVal → Out) (client : Str) (doc : Option Json) (m : Msg)
    (hm : doc.bind (decode T true) = some m) (hr : run m.val = .ok ∨ run m.val = .nack) :
    (handleCtrl T run client doc).1 = [⟨some client,
      if m.type = .cmd ∧ run m.val = .ok ∧ m.val ∈ [MsgVal.configure, .requestConfiguration, .execute, .requestCommands,
        .status, .requestVersion, .resetStatistics, .shutdown] then .ack else .nack, m.val, m.id.getD 0⟩] := by
  have hk : m.val ∈ [MsgVal.configure, .requestConfiguration, .execute, .requestCommands,
        .status, .requestVersion, .resetStatistics, .shutdown] ↔ known m.val = true := by
    cases m.val <;> decide
  unfold handleCtrl
  rw [hm]
  simp only [hk]
  by_cases h : m.type = .cmd ∧ known m.val = true
  · rw [if_pos h]
    rcases hr with hr | hr <;> simp [hr, h.1, h.2]
  · rw [if_neg h, if_neg (fun c => h ⟨c.1, c.2.2⟩)]

example : (handleCtrl Receiver.clock (fun _ => .ok) "c".toList (some (Receiver.request "shutdown" (.obj [])))).1 =
    [⟨some "c".toList, .ack, .shutdown, 7⟩] := by decide +kernel

/-- A message that cannot be decoded gets no reply. -/
theorem C38_processor_violated : ¬ C38_processor_statement := by
  intro h
  obtain ⟨r, hr, _⟩ := h Receiver.clock (fun _ => .ok) "c".toList none
  simp [handleCtrl] at hr

/-- The reply to a command that fails with a runtime error is not addressed to the sender. -/
theorem C38_processor_unaddressed :
    (handleCtrl Receiver.clock (fun _ => .runtime) "c".toList (some (Receiver.request "execute" (.obj [])))).1 =
      [⟨none, .nack, .configure, 7⟩] := by decide +kernel

/-- A command with a parameter of a wrong type (a message exception) gets no reply. -/
theorem C38_processor_wrong_type :
    (handleCtrl Receiver.clock (fun _ => .message) "c".toList (some (Receiver.request "configure" (.obj [])))).1 = [] := by
  decide +kernel

example : (handleCtrl Receiver.clock (fun _ => .ok) "c".toList (some (Receiver.request "status" (.obj [])))).1 =
    [⟨some "c".toList, .ack, .status, 7⟩] := by decide +kernel

end Verif.ProcessorCtrl
