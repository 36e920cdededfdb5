import Verif.Props.ReceiverReport
/-! Property C186: a configuration that the frame receiver refuses leaves it as it was. -/
namespace Verif.Receiver
open Verif.Ipc

/-! ## The steps one after the other -/

/-- Steps one after the other, up to the first exception. -/
def seq : List (St → St × Out) → St → St × Out
  | [], s => (s, .ok)
  | f :: fs, s => andThen (f s) (seq fs)

/-- `ipc_configured_ = false`, FrameReceiverController.cpp:205. -/
def unflag (s : St) : St × Out := ({ s with ipcOk := false }, .ok)

/-- The steps up to the start of the thread, with the parameter each of them reads, FrameReceiverController.cpp:79-713. -/
def named (e : Env) (ps : Json) : List (String × (St → St × Out)) :=
  [("debug_level", setDebug ps), ("frames", setFrames ps), ("", unflag), ("ctrl_endpoint", setCtrl e ps), ("rx_endpoint", setRx e ps),
   ("frame_ready_endpoint", setReady e ps), ("frame_release_endpoint", setRelease e ps), ("", flagIpc), ("decoder_path", setPath ps),
   ("decoder_type", setType ps), ("decoder_config", setDecoderConfig ps), ("", loadDecoder e), ("shared_buffer_name", setName ps),
   ("max_buffer_mem", setMem ps), ("", createManager e), ("rx_type", setRxType ps), ("rx_address", setAddress ps),
   ("rx_recv_buffer_size", setRecvSize ps), ("rx_ports", setPorts ps)]

theorem andThen_assoc (r : St × Out) (f g : St → St × Out) : andThen (andThen r f) g = andThen r fun s => andThen (f s) g := by
  obtain ⟨s, o⟩ := r
  cases o <;> rfl

theorem seq_append (a b : List (St → St × Out)) (s : St) : seq (a ++ b) s = andThen (seq a s) (seq b) := by
  induction a generalizing s with
  | nil => rfl
  | cons f fs ih =>
    show andThen (f s) (seq (fs ++ b)) = andThen (andThen (f s) (seq fs)) (seq b)
    rw [andThen_assoc]
    congr 1
    funext t
    exact ih t

theorem andThen_unflag (s : St) (f : St → St × Out) : andThen (unflag s) f = f { s with ipcOk := false } := rfl

theorem andThen_done (s : St) (f : St → St × Out) : andThen (s, .ok) f = f s := rfl

theorem configure_seq (e : Env) (ps : Json) (s : St) :
    configure e ps s = andThen (seq ((named e ps).map (·.2)) s) fun t => andThen (startThread e t) finish := by
  simp only [configure, configureIpc, configureDecoder, configureBuffer, configureRx, named, List.map_cons, List.map_nil, seq, andThen_assoc,
    andThen_unflag, andThen_done]

/-- A predicate kept by the steps is kept by all of them. -/
theorem seq_pres {P : St → Prop} (l : List (St → St × Out)) (h : ∀ f ∈ l, ∀ s, P s → P (f s).1) (s : St) (hs : P s) : P (seq l s).1 := by
  induction l generalizing s with
  | nil => exact hs
  | cons f fs ih =>
    exact andThen_pres (h f (List.mem_cons_self ..) s hs) fun t ht => ih (fun g hg => h g (List.mem_cons_of_mem _ hg)) t ht

theorem andThen_not {r : St × Out} {f : St → St × Out} (h : (andThen r f).2 ≠ .ok) :
    (r.2 ≠ .ok ∧ andThen r f = r) ∨ (r.2 = .ok ∧ andThen r f = f r.1 ∧ (f r.1).2 ≠ .ok) := by
  obtain ⟨s, o⟩ := r
  cases o
  · exact Or.inr ⟨rfl, rfl, h⟩
  all_goals exact Or.inl ⟨by simp, rfl⟩

/-! ## C186 -/

/-- The reply is an error, and the receiver goes on: the other exceptions end it (C38, C162). -/
def Refused (r : St × Out) : Prop := r.2 = .receiver ∨ r.2 = .message

/-- The receiver works as before: same settings, same decoder, memory and thread. -/
def Untouched (s t : St) : Prop :=
  t.cfg = s.cfg ∧ t.decoder = s.decoder ∧ t.manager = s.manager ∧ t.thread = s.thread ∧ t.effects = s.effects

/-- The full claim. -/
def C186_statement : Prop := ∀ e ps s, Reach s → Refused (configure e ps s) → Untouched s (configure e ps s).1

theorem Refused.not_ok {r : St × Out} (h : Refused r) : r.2 ≠ .ok := by
  rcases h with h | h <;> rw [h] <;> simp

macro "each" : tactic => `(tactic| (
  simp only [named, List.map_cons, List.map_nil, List.forall_mem_cons, List.not_mem_nil, false_imp_iff, implies_true, and_true]
  (repeat' apply And.intro) <;> (
    intro s h
    simp only [setDebug, setFrames, setCtrl, setRx, setReady, setRelease, flagIpc, setPath, setType, setDecoderConfig, unflag,
      loadDecoder, setName, setMem, createManager, setRxType, setAddress, setRecvSize, setPorts, stopThread]
    (repeat' split) <;> simp_all)))

/-- A refusal does not change what is reported about completeness. -/
theorem C186_complete (e : Env) (ps : Json) (s : St) (h : (configure e ps s).2 ≠ .ok) : (configure e ps s).1.complete = s.complete := by
  rw [configure_seq] at h ⊢
  have k : ∀ f ∈ (named e ps).map (·.2), ∀ t : St, t.complete = s.complete → (f t).1.complete = s.complete := by each
  have hk := seq_pres _ k s rfl
  rcases andThen_not h with ⟨_, hr⟩ | ⟨_, hr, h2⟩
  · rw [hr]; exact hk
  · rw [hr]
    rcases andThen_not h2 with ⟨_, hr2⟩ | ⟨_, _, h3⟩
    · rw [hr2]
      generalize (seq ((named e ps).map (·.2)) s).1 = t at hk
      revert t
      intro t ht
      simp only [startThread, stopThread]
      (repeat' split) <;> simp_all
    · exact absurd rfl h3

/-- If something has been set up anew before the refusal, no thread is left. -/
theorem C186_stopped (e : Env) (ps : Json) (s : St) (h : (configure e ps s).2 ≠ .ok) (he : (configure e ps s).1.effects ≠ s.effects) :
    (configure e ps s).1.thread = false := by
  rw [configure_seq] at h he ⊢
  have k : ∀ f ∈ (named e ps).map (·.2), ∀ t : St, (t.effects = s.effects ∨ t.thread = false) →
      ((f t).1.effects = s.effects ∨ (f t).1.thread = false) := by each
  have hk := seq_pres (P := fun t => t.effects = s.effects ∨ t.thread = false) _ k s (Or.inl rfl)
  rcases andThen_not h with ⟨_, hr⟩ | ⟨_, hr, h2⟩
  · rw [hr] at he ⊢
    exact hk.resolve_left he
  · rw [hr] at he ⊢
    rcases andThen_not h2 with ⟨h4, hr2⟩ | ⟨_, _, h3⟩
    · rw [hr2] at he ⊢
      generalize (seq ((named e ps).map (·.2)) s).1 = t at *
      revert h4 he
      simp only [startThread, stopThread]
      (repeat' split) <;> simp_all
    · exact absurd rfl h3

/-- A shared memory that has been made will be made again by the next command. -/
theorem manager_inv (s : St) (h : Reach s) : s.manager = true → s.needBuffer = true := by
  refine Reach.inv (P := fun s => s.manager = true → s.needBuffer = true) ?_ ?_ ?_ ?_ s h
  · intro path; simp
  · intro e ps; steps
  · others
  · intro e; others

/-- Up to the start of the thread: either something has been set up anew, or all is as before. -/
def Quiet (s t : St) : Prop :=
  (t.manager = true → t.needBuffer = true) ∧
    (s.effects.length < t.effects.length ∨ (t.effects = s.effects ∧ t.decoder = s.decoder ∧ t.manager = s.manager ∧ t.thread = s.thread))

/-- After the shared memory. -/
def Quiet2 (s t : St) : Prop :=
  s.effects.length < t.effects.length ∨
    (t.effects = s.effects ∧ t.decoder = s.decoder ∧ t.manager = s.manager ∧ t.thread = s.thread ∧ (t.decoder && t.manager) = false)

def before (e : Env) (ps : Json) : List (St → St × Out) := ((named e ps).map (·.2)).take 14

def after (ps : Json) : List (St → St × Out) := [setRxType ps, setAddress ps, setRecvSize ps, setPorts ps]

theorem named_split (e : Env) (ps : Json) : (named e ps).map (·.2) = before e ps ++ createManager e :: after ps := rfl

theorem before_quiet (e : Env) (ps : Json) (s : St) : ∀ f ∈ before e ps, ∀ t, Quiet s t → Quiet s (f t).1 := by
  simp only [before, named, List.map_cons, List.map_nil, List.take_succ_cons, List.take_zero, List.forall_mem_cons, List.not_mem_nil,
    false_imp_iff, implies_true, and_true]
  (repeat' apply And.intro) <;> (
    intro t h
    obtain ⟨h1, h2⟩ := h
    simp only [setDebug, setFrames, setCtrl, setRx, setReady, setRelease, flagIpc, setPath, setType, setDecoderConfig, unflag,
      loadDecoder, setName, setMem, stopThread, Quiet]
    rcases h2 with h2 | h2 <;> (repeat' split) <;> simp_all <;> omega)

theorem create_quiet (e : Env) (s t : St) (h : Quiet s t) : Quiet2 s (createManager e t).1 := by
  obtain ⟨h1, h2⟩ := h
  simp only [createManager, stopThread, Quiet2]
  rcases h2 with h2 | h2 <;> (repeat' split) <;> simp_all <;> omega

theorem after_quiet (ps : Json) (s : St) : ∀ f ∈ after ps, ∀ t, Quiet2 s t → Quiet2 s (f t).1 := by
  simp only [after, List.forall_mem_cons, List.not_mem_nil, false_imp_iff, implies_true, and_true]
  (repeat' apply And.intro) <;> (
    intro t h
    simp only [setRxType, setAddress, setRecvSize, setPorts, Quiet2] at h ⊢
    rcases h with h | h <;> (repeat' split) <;> first | exact Or.inl h | exact Or.inr h)

theorem Quiet.same {s t : St} (h : Quiet s t) (he : t.effects = s.effects) :
    t.decoder = s.decoder ∧ t.manager = s.manager ∧ t.thread = s.thread := by
  rcases h.2 with h | h
  · rw [he] at h; omega
  · exact h.2

theorem Quiet2.same {s t : St} (h : Quiet2 s t) (he : t.effects = s.effects) :
    t.decoder = s.decoder ∧ t.manager = s.manager ∧ t.thread = s.thread ∧ (t.decoder && t.manager) = false := by
  rcases h with h | h
  · rw [he] at h; omega
  · exact h.2

/-- A refusal before anything was set up anew leaves decoder, memory and thread at work. Missing: the settings (C186_sole), and refusals
that come later (C186_stopped). -/
theorem C186_partial (e : Env) (ps : Json) (s : St) (hs : Reach s) (h : (configure e ps s).2 ≠ .ok)
    (he : (configure e ps s).1.effects = s.effects) :
    (configure e ps s).1.decoder = s.decoder ∧ (configure e ps s).1.manager = s.manager ∧ (configure e ps s).1.thread = s.thread := by
  have q1 := seq_pres _ (before_quiet e ps s) s ⟨manager_inv s hs, Or.inr ⟨rfl, rfl, rfl, rfl⟩⟩
  rw [configure_seq, named_split, seq_append, andThen_assoc] at h he ⊢
  rcases andThen_not h with ⟨_, hr⟩ | ⟨_, hr, h⟩
  · rw [hr] at he ⊢
    exact q1.same he
  rw [hr] at he ⊢
  have q2 := create_quiet e s _ q1
  have q3 := andThen_pres (f := seq (after ps)) q2 fun t ht => seq_pres _ (after_quiet ps s) t ht
  generalize (seq (before e ps) s).1 = t at *
  have hseq : seq (createManager e :: after ps) t = andThen (createManager e t) (seq (after ps)) := rfl
  rw [hseq] at h he ⊢
  rcases andThen_not h with ⟨_, hr⟩ | ⟨_, hr, h⟩
  · rw [hr] at he ⊢
    exact ⟨(q3.same he).1, (q3.same he).2.1, (q3.same he).2.2.1⟩
  rw [hr] at he ⊢
  generalize (andThen (createManager e t) (seq (after ps))).1 = u at *
  rcases andThen_not h with ⟨_, hr⟩ | ⟨_, _, h⟩
  · rw [hr] at he ⊢
    have hd : (startThread e u).1.effects = s.effects → u.effects = s.effects ∧ (startThread e u).1.decoder = u.decoder ∧
        (startThread e u).1.manager = u.manager ∧ ((u.decoder && u.manager) = false → (startThread e u).1.thread = u.thread) := by
      rcases q3 with q | q
      · intro hx
        exfalso
        revert hx
        simp only [startThread, stopThread]
        (repeat' split) <;> intro hx <;> have := congrArg List.length hx <;> simp at this <;> omega
      · intro hx
        simp only [startThread, stopThread]
        (repeat' split) <;> simp_all
    obtain ⟨d1, d2, d3, d4⟩ := hd he
    obtain ⟨q4, q5, q6, q7⟩ := q3.same d1
    exact ⟨d2.trans q4, d3.trans q5, (d4 q7).trans q6⟩
  · exact absurd rfl h

/-- Of a message with one member. -/
theorem param_other {α : Type} (k : Str) (v : Json) (name : String) (read : Json → Option α) (h : k ≠ name.toList) :
    param (.obj [(k, v)]) name read = some none := by
  unfold param
  simp [findM, h]

theorem paramOr_other {α : Type} (k : Str) (v : Json) (name : String) (read : Json → Option α) (d : α) (h : k ≠ name.toList) :
    paramOr (.obj [(k, v)]) name read d = some d := by
  unfold paramOr
  simp [findM, h]

/-- Steps of which only one can refuse a message, and leaves the settings then. -/
theorem seq_sole (k : Str) (l : List (String × (St → St × Out))) (hd : (l.map (·.1.toList)).count k ≤ 1)
    (ha : ∀ x ∈ l, k ≠ x.1.toList → ∀ s, (x.2 s).1.cfg = s.cfg ∧ (x.2 s).2 ≠ .message)
    (hb : ∀ x ∈ l, ∀ s, (x.2 s).2 = .message → (x.2 s).1.cfg = s.cfg) (s : St) (h : (seq (l.map (·.2)) s).2 = .message) :
    (seq (l.map (·.2)) s).1.cfg = s.cfg := by
  induction l generalizing s with
  | nil => rfl
  | cons x l ih =>
    have hseq : seq ((x :: l).map (·.2)) s = andThen (x.2 s) (seq (l.map (·.2))) := rfl
    rw [hseq] at h ⊢
    have hn : (andThen (x.2 s) (seq (l.map (·.2)))).2 ≠ .ok := by rw [h]; simp
    rcases andThen_not hn with ⟨_, hr⟩ | ⟨_, hr, _⟩
    · rw [hr] at h ⊢
      exact hb x (List.mem_cons_self ..) s h
    · rw [hr] at h ⊢
      have ha' : ∀ y ∈ l, k ≠ y.1.toList → ∀ s, (y.2 s).1.cfg = s.cfg ∧ (y.2 s).2 ≠ .message := fun y hy => ha y (List.mem_cons_of_mem _ hy)
      by_cases hk : k = x.1.toList
      · exfalso
        have hnone : ∀ y ∈ l, k ≠ y.1.toList := by
          intro y hy hky
          rw [List.map_cons, ← hk, List.count_cons_self] at hd
          have : k ∈ l.map (·.1.toList) := List.mem_map.2 ⟨y, hy, hky.symm⟩
          have := List.count_pos_iff.2 this
          omega
        have hno : ∀ (l : List (String × (St → St × Out))) (t : St), (∀ y ∈ l, ∀ s, (y.2 s).2 ≠ .message) → (seq (l.map (·.2)) t).2 ≠ .message := by
          intro l
          induction l with
          | nil => intro t _; simp [seq]
          | cons y l ih =>
            intro t hy hm
            have hseq : seq ((y :: l).map (·.2)) t = andThen (y.2 t) (seq (l.map (·.2))) := rfl
            rw [hseq] at hm
            have hn : (andThen (y.2 t) (seq (l.map (·.2)))).2 ≠ .ok := by rw [hm]; simp
            rcases andThen_not hn with ⟨_, hr⟩ | ⟨_, hr, _⟩
            · rw [hr] at hm
              exact hy y (List.mem_cons_self ..) t hm
            · rw [hr] at hm
              exact ih _ (fun z hz => hy z (List.mem_cons_of_mem _ hz)) hm
        exact hno l _ (fun y hy s => (ha' y hy (hnone y hy) s).2) h
      · rw [← (ha x (List.mem_cons_self ..) hk s).1]
        refine ih ?_ ha' (fun y hy => hb y (List.mem_cons_of_mem _ hy)) _ h
        rw [List.map_cons] at hd
        exact Nat.le_trans (List.Sublist.count_le _ (List.sublist_cons_self ..)) hd

/-- One parameter of the wrong type, and no other one: the settings stay as they were. -/
theorem C186_sole (e : Env) (k : Str) (v : Json) (s : St) (hk : k ≠ [] ∧ k ≠ "decoder_config".toList)
    (h : (configure e (.obj [(k, v)]) s).2 = .message) : (configure e (.obj [(k, v)]) s).1.cfg = s.cfg := by
  have hstart : ∀ t : St, (andThen (startThread e t) finish).2 ≠ .message := by
    intro t
    have hf : ∀ t, (finish t).2 ≠ .message := fun t => by simp [finish]
    simp only [startThread, stopThread]
    (repeat' split) <;> first | exact hf _ | simp [andThen]
  rw [configure_seq] at h ⊢
  have hn : (andThen (seq ((named e (.obj [(k, v)])).map (·.2)) s) fun t => andThen (startThread e t) finish).2 ≠ .ok := by rw [h]; simp
  rcases andThen_not hn with ⟨_, hr⟩ | ⟨_, hr, _⟩
  · rw [hr] at h ⊢
    refine seq_sole k _ ?_ ?_ ?_ s h
    · have hd : (((named e (.obj [(k, v)])).map (·.1.toList)).filter (· ≠ [])).Nodup := by
        have : (named e (.obj [(k, v)])).map (·.1.toList) = ["debug_level", "frames", "", "ctrl_endpoint", "rx_endpoint",
          "frame_ready_endpoint", "frame_release_endpoint", "", "decoder_path", "decoder_type", "decoder_config", "", "shared_buffer_name",
          "max_buffer_mem", "", "rx_type", "rx_address", "rx_recv_buffer_size", "rx_ports"].map String.toList := rfl
        rw [this]
        decide +kernel
      rw [← List.count_filter (p := fun n => decide (n ≠ [])) (by simpa using hk.1)]
      exact List.nodup_iff_count.1 hd k
    · simp only [named, List.forall_mem_cons, List.not_mem_nil, false_imp_iff, implies_true, and_true]
      (repeat' apply And.intro) <;> (
        intro hx t
        simp only [setDebug, setFrames, setCtrl, setRx, setReady, setRelease, flagIpc, setPath, setType, setDecoderConfig, unflag,
          loadDecoder, setName, setMem, createManager, setRxType, setAddress, setRecvSize, setPorts, stopThread]
        try rw [param_other k v _ _ hx]
        try simp only [paramOr_other k v _ _ _ hx, rxType_roundtrip, if_true]
        (repeat' split) <;> simp_all)
    · simp only [named, List.forall_mem_cons, List.not_mem_nil, false_imp_iff, implies_true, and_true]
      (repeat' apply And.intro) <;> (
        intro t hx
        revert hx
        simp only [setDebug, setFrames, setCtrl, setRx, setReady, setRelease, flagIpc, setPath, setType, setDecoderConfig, unflag,
          loadDecoder, setName, setMem, createManager, setRxType, setAddress, setRecvSize, setPorts, stopThread]
        try rw [param_other k v "decoder_config" _ hk.2]
        (repeat' split) <;> simp_all)
  · rw [hr] at h
    exact absurd h (hstart _)

/-- A message that says nothing but the ports, if those. -/
structure Silent (ps : Json) : Prop where
  param : ∀ {α : Type} (name : String) (read : Json → Option α), name ≠ "rx_ports" → param ps name read = some none
  paramOr : ∀ {α : Type} (name : String) (read : Json → Option α) (d : α), name ≠ "rx_ports" → paramOr ps name read d = some d

theorem silent_ports (v : Json) : Silent (.obj [("rx_ports".toList, v)]) :=
  ⟨fun name read h => param_other _ v name read (fun hx => h (String.toList_inj.1 hx.symm)),
   fun name read d h => paramOr_other _ v name read d (fun hx => h (String.toList_inj.1 hx.symm))⟩

theorem silent_empty : Silent (.obj []) := ⟨fun _ _ _ => rfl, fun _ _ _ _ => rfl⟩

/-- The state in which such a message gets to the decoder. -/
def flagged (s : St) : St := { s with ipcOk := s.ctrlSet && s.rxSet && s.readySet && s.readySet }

theorem setPath_silent {ps : Json} (h : Silent ps) (s : St) (hp : s.cfg.path ≠ []) : setPath ps s = (s, .ok) := by
  simp only [setPath, h.paramOr _ _ _ (show "decoder_path" ≠ "rx_ports" by decide), if_neg hp, if_true]

/-- What such a message does. -/
theorem configure_silent {ps : Json} (h : Silent ps) (e : Env) (s : St) (hp : s.cfg.path ≠ []) :
    configure e ps s = andThen (loadDecoder e (flagged s)) fun t => andThen (createManager e t) fun t => andThen (setPorts ps t) fun t =>
      andThen (startThread e t) finish := by
  have a1 : ∀ t, setDebug ps t = (t, .ok) := fun t => by simp only [setDebug, h.param _ _ (show "debug_level" ≠ "rx_ports" by decide)]
  have a2 : ∀ t, setFrames ps t = (t, .ok) := fun t => by simp only [setFrames, h.param _ _ (show "frames" ≠ "rx_ports" by decide)]
  have a3 : ∀ t, setCtrl e ps t = (t, .ok) := fun t => by simp only [setCtrl, h.param _ _ (show "ctrl_endpoint" ≠ "rx_ports" by decide)]
  have a4 : ∀ t, setRx e ps t = (t, .ok) := fun t => by simp only [setRx, h.param _ _ (show "rx_endpoint" ≠ "rx_ports" by decide)]
  have a5 : ∀ t, setReady e ps t = (t, .ok) := fun t => by
    simp only [setReady, h.param _ _ (show "frame_ready_endpoint" ≠ "rx_ports" by decide)]
  have a6 : ∀ t, setRelease e ps t = (t, .ok) := fun t => by
    simp only [setRelease, h.param _ _ (show "frame_release_endpoint" ≠ "rx_ports" by decide)]
  have a7 : ∀ t, setType ps t = (t, .ok) := fun t => by
    simp only [setType, h.paramOr _ _ _ (show "decoder_type" ≠ "rx_ports" by decide), if_true]
  have a8 : ∀ t, setDecoderConfig ps t = (t, .ok) := fun t => by
    simp only [setDecoderConfig, h.param _ _ (show "decoder_config" ≠ "rx_ports" by decide)]
  have a9 : ∀ t, setName ps t = (t, .ok) := fun t => by
    simp only [setName, h.paramOr _ _ _ (show "shared_buffer_name" ≠ "rx_ports" by decide), if_true]
  have a10 : ∀ t, setMem ps t = (t, .ok) := fun t => by
    simp only [setMem, h.paramOr _ _ _ (show "max_buffer_mem" ≠ "rx_ports" by decide), if_true]
  have a11 : ∀ t, setRxType ps t = (t, .ok) := fun t => by
    simp only [setRxType, h.paramOr _ _ _ (show "rx_type" ≠ "rx_ports" by decide), rxType_roundtrip, if_true]
  have a12 : ∀ t, setAddress ps t = (t, .ok) := fun t => by
    simp only [setAddress, h.paramOr _ _ _ (show "rx_address" ≠ "rx_ports" by decide), if_true]
  have a13 : ∀ t, setRecvSize ps t = (t, .ok) := fun t => by
    simp only [setRecvSize, h.paramOr _ _ _ (show "rx_recv_buffer_size" ≠ "rx_ports" by decide), if_true]
  have af : ∀ t, andThen (flagIpc t) = fun f => f (flagged t) := fun t => rfl
  have ap : setPath ps (flagged { s with ipcOk := false }) = (flagged s, .ok) := setPath_silent h (flagged s) hp
  simp only [configure, configureIpc, configureDecoder, configureBuffer, configureRx, andThen_assoc, a1, a2, a3, a4, a5, a6, a7, a8, a9, a10, a11,
    a12, a13, andThen_done, af, ap]

/-- The stored settings can be set up. -/
structure SetUp (e : Env) (s : St) : Prop where
  need : s.needDecoder = true
  type : s.cfg.type ≠ "unknown".toList
  path : s.cfg.path ≠ []
  ports : s.cfg.ports ≠ []
  kind : s.cfg.rxType ≠ .illegal
  load : e.load (slashed s.cfg.path) s.cfg.type = true
  init : e.init s.cfg.decoder = true
  manager : (e.manager s.cfg.name s.cfg.mem).isSome = true

/-- After decoder and memory have been set up anew. -/
theorem sound_up {e : Env} {s : St} (h : SetUp e s) (f : St → St × Out) :
    ∃ t, (andThen (loadDecoder e (flagged s)) fun t => andThen (createManager e t) f) = f t ∧ t.cfg = s.cfg ∧ t.thread = false ∧
      t.decoder = true ∧ t.manager = true ∧ t.needRx = true ∧ t.decoderOk = true ∧ t.bufferOk = true ∧ t.ipcOk = (flagged s).ipcOk ∧
      t.effects = s.effects ++ [.load, .create] := by
  obtain ⟨n, hn⟩ := Option.isSome_iff_exists.1 h.manager
  obtain ⟨u, hu, u1, u2, u3, u4, u5, u6, u7⟩ : ∃ u, loadDecoder e (flagged s) = (u, .ok) ∧ u.cfg = s.cfg ∧ u.thread = false ∧ u.decoder = true ∧
      u.needBuffer = true ∧ u.decoderOk = true ∧ u.ipcOk = (flagged s).ipcOk ∧ u.effects = s.effects ++ [.load] := by
    refine ⟨{ stopThread (flagged s) with decoder := true, decoderOk := true, needBuffer := true, needRx := true,
                                          effects := (flagged s).effects ++ [.load] }, ?_, ?_⟩
    · unfold loadDecoder
      rw [if_pos (show (flagged s).needDecoder = true from h.need), if_neg (show (flagged s).cfg.type ≠ _ from h.type),
        if_pos (show e.load (slashed (flagged s).cfg.path) (flagged s).cfg.type = true from h.load),
        if_pos (show e.init (flagged s).cfg.decoder = true from h.init)]
    · refine ⟨stopThread_cfg _, ?_, rfl, rfl, rfl, ?_, rfl⟩
      · simp only [stopThread]; split <;> simp_all
      · simp only [stopThread]; split <;> rfl
  rw [hu, andThen_done]
  refine ⟨{ stopThread u with manager := true, bufferOk := true, needRx := true, total := some n, effects := u.effects ++ [.create] }, ?_, ?_⟩
  · unfold createManager
    rw [if_pos u4, if_pos u3, u1, hn]
    exact andThen_done _ _
  · refine ⟨(stopThread_cfg _).trans u1, ?_, ?_, rfl, rfl, ?_, rfl, ?_, ?_⟩
    · simp only [stopThread]; split <;> simp_all
    · simp only [stopThread]; split <;> exact u3
    · simp only [stopThread]; split <;> exact u5
    · simp only [stopThread]; split <;> exact u6
    · show u.effects ++ [.create] = _
      rw [u7, List.append_assoc]
      rfl

theorem portText_some (l : List Nat) (h : l ≠ []) : ∃ t, portText l = some t := by
  unfold portText
  cases l with
  | nil => exact absurd rfl h
  | cons p l =>
    refine ⟨_, if_neg ?_⟩
    simp

/-- A receiver at work that is told ports which are no text: decoder and memory are made anew, then the message is refused. The settings
are the same, but no thread is left; the receiver is still reported complete if it was. -/
theorem C186_down (e : Env) (v : Json) (s : St) (h : SetUp e s) (hv : v.asStr = none) :
    (configure e (.obj [("rx_ports".toList, v)]) s).2 = .message ∧ (configure e (.obj [("rx_ports".toList, v)]) s).1.cfg = s.cfg ∧
      (configure e (.obj [("rx_ports".toList, v)]) s).1.thread = false ∧
      (configure e (.obj [("rx_ports".toList, v)]) s).1.complete = s.complete := by
  have h1 : (configure e (.obj [("rx_ports".toList, v)]) s).2 = .message ∧ (configure e (.obj [("rx_ports".toList, v)]) s).1.thread = false ∧
      (configure e (.obj [("rx_ports".toList, v)]) s).1.cfg = s.cfg := by
    rw [configure_silent (silent_ports v) e s h.path]
    obtain ⟨t, ht, t1, t2, _⟩ := sound_up h fun t => andThen (setPorts (.obj [("rx_ports".toList, v)]) t) fun t => andThen (startThread e t) finish
    rw [ht]
    obtain ⟨x, hx⟩ := portText_some t.cfg.ports (by rw [t1]; exact h.ports)
    have hp : setPorts (.obj [("rx_ports".toList, v)]) t = (t, .message) := by
      have : paramOr (.obj [("rx_ports".toList, v)]) "rx_ports" Json.asStr x = none := by
        unfold paramOr
        simp [findM, hv]
      simp only [setPorts, hx, this]
    rw [hp]
    exact ⟨rfl, t2, t1⟩
  exact ⟨h1.1, h1.2.2, h1.2.1, C186_complete e _ s (by rw [h1.1]; simp)⟩

/-- Any configuration that can be set up brings the receiver up again, even one without parameters. -/
theorem C186_again (e : Env) (s : St) (h : SetUp e s) :
    (configure e (.obj []) s).2 = .ok ∧ (configure e (.obj []) s).1.cfg = s.cfg ∧ (configure e (.obj []) s).1.thread = true ∧
      (configure e (.obj []) s).1.decoderOk = true ∧ (configure e (.obj []) s).1.bufferOk = true ∧
      (configure e (.obj []) s).1.rxOk = e.start := by
  rw [configure_silent silent_empty e s h.path]
  obtain ⟨t, ht, t1, t2, t3, t4, t5, t6, t7, t8, t9⟩ := sound_up h fun t => andThen (setPorts (.obj []) t) fun t => andThen (startThread e t) finish
  rw [ht]
  obtain ⟨x, hx⟩ := portText_some t.cfg.ports (by rw [t1]; exact h.ports)
  have hp : setPorts (.obj []) t = (t, .ok) := by
    have : paramOr (.obj []) "rx_ports" Json.asStr x = some x := rfl
    simp only [setPorts, hx, this, if_true]
  have hs : startThread e t = ({ t with thread := true, rxOk := e.start, effects := t.effects ++ [.start] }, .ok) := by
    unfold startThread
    rw [if_pos t5, if_pos (by rw [t3, t4]; rfl), if_neg (by rw [t1]; exact h.kind)]
  rw [hp, andThen_done, hs]
  exact ⟨rfl, t1, rfl, t6, t7, rfl⟩

/-- The claim is false: of a new address and ports that are no text the address is kept, and the thread is gone. -/
theorem C186_violated : ¬ C186_statement := by
  intro h
  have := (h good (.obj [("rx_address".toList, .str "127.0.0.1".toList), ("rx_ports".toList, .num 1)]) full
    (.configure _ _ _ (.init lib)) (Or.inr (by decide +kernel))).2.2.2.1
  revert this
  decide +kernel

/-- A wrong decoder is kept in the settings: the command without parameters, which was accepted before, is refused from then on. -/
theorem C186_kept : let e : Env := { good with load := fun _ t => t = "DummyUDP".toList }
    (configure e (.obj []) full).2 = .ok ∧
    (configure e (texts [("decoder_type", "Typo")]) full).2 = .receiver ∧
    (configure e (texts [("decoder_type", "Typo")]) full).1.cfg.type = "Typo".toList ∧
    (configure e (.obj []) (configure e (texts [("decoder_type", "Typo")]) full).1).2 = .receiver := by decide +kernel

/-- Non-vacuity: the full configuration can be set up; it is brought down and up again. -/
example : SetUp good full := by constructor <;> decide +kernel
example : (configure good (.obj [("rx_ports".toList, .num 1)]) full).1.thread = false ∧
    (configure good (.obj [("rx_ports".toList, .num 1)]) full).1.complete = true ∧
    (configure good (.obj []) (configure good (.obj [("rx_ports".toList, .num 1)]) full).1).1.thread = true := by decide +kernel

/-- A refusal before anything is set up: the thread goes on. -/
example : (configure good (.obj [("frames".toList, .str [])]) full).2 = .message ∧
    (configure good (.obj [("frames".toList, .str [])]) full).1.effects = full.effects ∧
    (configure good (.obj [("frames".toList, .str [])]) full).1.thread = true := by decide +kernel

/-! ## C37: what the flags of the channels mean -/

/-- A channel is flagged exactly when an endpoint is stored for it. -/
def Flags (s : St) : Prop :=
  (s.ctrlSet = true ↔ s.cfg.ctrl ≠ []) ∧ (s.rxSet = true ↔ s.cfg.rx ≠ []) ∧ (s.readySet = true ↔ s.cfg.ready ≠ []) ∧
    (s.releaseSet = true ↔ s.cfg.release ≠ [])

/-- If the empty endpoint cannot be bound, every command, accepted or refused, keeps the flags right; they are at the start. -/
theorem C37_flags (e : Env) (hb : e.bind [] = false) (ps : Json) (s : St) (h : Flags s) : Flags (configure e ps s).1 := by
  have hc : ∀ ep, e.bind ep = true → ep ≠ [] := by
    rintro ep h1 rfl
    rw [hb] at h1
    cases h1
  have k : Kept e ps Flags := by
    constructor <;> (
      intro s h
      obtain ⟨h1, h2, h3, h4⟩ := h
      simp only [setDebug, setFrames, setCtrl, setRx, setReady, setRelease, flagIpc, setPath, setType, setDecoderConfig,
        loadDecoder, setName, setMem, createManager, setRxType, setAddress, setRecvSize, setPorts, startThread, finish, stopThread, Flags]
      (repeat' split) <;> first | exact ⟨h1, h2, h3, h4⟩ | exact ⟨⟨fun _ => hc _ ‹_›, fun _ => rfl⟩, h2, h3, h4⟩ |
        exact ⟨h1, ⟨fun _ => hc _ ‹_›, fun _ => rfl⟩, h3, h4⟩ | exact ⟨h1, h2, ⟨fun _ => hc _ ‹_›, fun _ => rfl⟩, h4⟩ |
        exact ⟨h1, h2, h3, fun _ => hc _ ‹_›, fun _ => rfl⟩)
  exact k.all s h

example (path : Str) : Flags { cfg := { path := path } } := by simp [Flags]
example : Flags full ∧ full.releaseSet = true ∧ threeChannels.releaseSet = false ∧ threeChannels.cfg.release = [] := by
  refine ⟨?_, by decide +kernel⟩
  unfold Flags
  decide +kernel

end Verif.Receiver
