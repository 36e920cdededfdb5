import Verif.Props.PluginConfig
/-!
C110: the report of the Kafka plugin restores it; C111: servers and topic of the Kafka plugin; C112: the report of the live view;
C113: lists of names.
-/
namespace Verif.PluginConfig
open Verif.Ipc Verif.Reply

/-! ## C110 -/

/-- The values a user configures. -/
def Kafka.SameCfg (s t : Kafka) : Prop :=
  s.servers = t.servers ∧ s.topic = t.topic ∧ s.partition = t.partition ∧ s.dataset = t.dataset ∧ s.params = t.params

inductive Kafka.Reach (ok : Str → Bool) : Kafka → Prop
  | new : Reach ok {}
  | msg (s t : Kafka) (j : Json) : Reach ok s → s.configure ok j = some t → Reach ok t

/-- C110, full statement: a new plugin accepts the report and has the values reported. -/
def C110_statement : Prop :=
  ∀ ok s, Kafka.Reach ok s → ∀ n, Name n → (reply n s.report).2 = .ok ∧
    ∃ t, restore (Kafka.configure ok) {} n (reply n s.report).1 = some t ∧ t.SameCfg s

/-- What the message says. -/
theorem kafka_fields (s : Kafka) (n : Str) (hn : Name n) :
    (reply n s.report).2 = .ok ∧ ∃ m, getParam (some (reply n s.report).1) n = some (.obj m) ∧
      Ipc.get ["servers".toList] (.obj m) = some (.str s.servers) ∧ Ipc.get ["topic".toList] (.obj m) = some (.str s.topic) ∧
      Ipc.get ["partition".toList] (.obj m) = some (.num s.partition) ∧ Ipc.get ["dataset".toList] (.obj m) = some (.str s.dataset) ∧
      Ipc.get ["include_parameters".toList] (.obj m) = some (.bool s.params) := by
  obtain ⟨h1, h2⟩ := flat_fields n s.report
    ["servers".toList, "topic".toList, "partition".toList, "dataset".toList, "include_parameters".toList] hn rfl (by decide +kernel)
    (keys_ok _ (by decide +kernel))
  refine ⟨h1, ?_⟩
  have e1 : told s.report ["servers".toList] = some (.str s.servers) := by simp [told, Kafka.report]
  have e2 : told s.report ["topic".toList] = some (.str s.topic) := by simp [told, Kafka.report]
  have e3 : told s.report ["partition".toList] = some (.num s.partition) := by simp [told, Kafka.report]
  have e4 : told s.report ["dataset".toList] = some (.str s.dataset) := by simp [told, Kafka.report]
  have e5 : told s.report ["include_parameters".toList] = some (.bool s.params) := by simp [told, Kafka.report]
  rcases h2 with ⟨_, h2⟩ | ⟨m, hm, h2⟩
  · have := h2 "servers".toList (by simp)
    rw [e1] at this
    cases this
  · exact ⟨m, hm, (h2 _ (by decide +kernel)).trans e1, (h2 _ (by decide +kernel)).trans e2, (h2 _ (by decide +kernel)).trans e3,
      (h2 _ (by decide +kernel)).trans e4, (h2 _ (by decide +kernel)).trans e5⟩

theorem kafka_restore (ok : Str → Bool) (s t : Kafka) (n : Str) (hn : Name n) :
    restore (Kafka.configure ok) t n (reply n s.report).1 =
      (upd ((t.setServers ok s.servers).setTopic s.topic) (fun s v => { s with partition := toInt32 v })
        ((Json.asUint (.num s.partition)).map some)).map (fun u => { u with dataset := s.dataset, params := s.params }) := by
  obtain ⟨_, m, hm, a1, a2, a3, a4, a5⟩ := kafka_fields s n hn
  simp only [restore, hm, Kafka.configure]
  rw [field_obj _ "servers".toList (by decide +kernel), field_obj _ "topic".toList (by decide +kernel),
    field_obj _ "partition".toList (by decide +kernel), field_obj _ "dataset".toList (by decide +kernel),
    field_obj _ "include_parameters".toList (by decide +kernel), a1, a2, a3, a4, a5]
  dsimp only
  generalize Json.asUint (.num s.partition) = p
  simp only [Json.asStr, Json.asBool, Option.map_some, upd, Option.bind_some]
  cases p <;> rfl

/-- A report with the partition to be chosen by the library, or any other negative one, is refused. -/
theorem C110_refused (ok : Str → Bool) (s t : Kafka) (h : s.partition < 0) (n : Str) (hn : Name n) :
    (reply n s.report).2 = .ok ∧ restore (Kafka.configure ok) t n (reply n s.report).1 = none := by
  refine ⟨(kafka_fields s n hn).1, ?_⟩
  rw [kafka_restore ok s t n hn]
  have : Json.asUint (.num s.partition) = none := by
    simp only [Json.asUint]
    rw [if_neg (by omega)]
  rw [this]
  rfl

/-- C110 for a partition that was configured and servers that are accepted, whatever the plugin was configured to before. -/
theorem C110_partial (ok : Str → Bool) (s t : Kafka) (h0 : 0 ≤ s.partition) (h1 : s.partition < 2147483648) (hok : ok s.servers = true)
    (n : Str) (hn : Name n) :
    (reply n s.report).2 = .ok ∧
    ∃ u, restore (Kafka.configure ok) t n (reply n s.report).1 = some u ∧ u.SameCfg s ∧ u.producer = true ∧ u.used = some s.topic := by
  refine ⟨(kafka_fields s n hn).1, ?_⟩
  rw [kafka_restore ok s t n hn]
  obtain ⟨p, hp⟩ : ∃ p : Nat, s.partition = p := ⟨s.partition.toNat, by omega⟩
  have e : Json.asUint (.num s.partition) = some p := by rw [hp]; exact asUint_ok p (by omega)
  have e2 : toInt32 p = s.partition := by rw [hp]; unfold toInt32; rw [if_pos (by omega)]
  rw [e]
  simp only [Option.map_some, upd, Kafka.setServers, hok, if_true, Kafka.setTopic, e2]
  exact ⟨_, rfl, ⟨rfl, rfl, rfl, rfl, rfl⟩, rfl, rfl⟩

theorem C110_violated : ¬ C110_statement := by
  intro h
  have hn : Name "kafka".toList := ⟨plain_of _ (by decide +kernel), by decide +kernel⟩
  obtain ⟨_, t, ht, _⟩ := h (fun _ => true) {} .new "kafka".toList hn
  rw [(C110_refused (fun _ => true) {} {} (by decide) "kafka".toList hn).2] at ht
  cases ht

/-- Partitions of 2^31 and more are accepted, and become negative ones. -/
theorem C110_wraps (ok : Str → Bool) (s t : Kafka) (j : Json) (v : Nat) (hv : 2147483648 ≤ v)
    (hf : field j "partition".toList Json.asUint = some (some v)) (h : s.configure ok j = some t) : t.partition = (v : Int) - 4294967296 := by
  have e : toInt32 v = (v : Int) - 4294967296 := by unfold toInt32; rw [if_neg (by omega)]
  simp only [Kafka.configure, hf] at h
  generalize field j "servers".toList Json.asStr = a at h
  generalize field j "topic".toList Json.asStr = b at h
  generalize field j "dataset".toList Json.asStr = c at h
  generalize field j "include_parameters".toList Json.asBool = d at h
  rcases a with _ | _ | a <;> rcases b with _ | _ | b <;> rcases c with _ | _ | c <;> rcases d with _ | _ | d <;>
    simp only [upd, Option.bind_some, Option.bind_none, Option.some.injEq, reduceCtorEq] at h <;> subst h <;> exact e

example : ∃ u, restore (Kafka.configure (fun _ => true)) {} "kafka".toList (reply "kafka".toList (Kafka.report
      { servers := "h:9092".toList, topic := "t".toList, partition := 3, dataset := "raw".toList, params := false })).1 = some u ∧
    u.topic = "t".toList ∧ u.partition = 3 := by
  obtain ⟨_, u, hu, hs, _⟩ := C110_partial (fun _ => true)
    { servers := "h:9092".toList, topic := "t".toList, partition := 3, dataset := "raw".toList, params := false } {} (by decide) (by decide) rfl
    "kafka".toList ⟨plain_of _ (by decide +kernel), by decide +kernel⟩
  exact ⟨u, hu, hs.2.1, hs.2.2.1⟩

/-! ## C111 -/

/-- What a message gives for a key. -/
def given (j : Json) (k : Str) : Option Str := (field j k Json.asStr).getD none

/-- The last value given for a key by a list of messages. -/
def lastGiven (k : Str) (l : List Json) : Option Str := (l.filterMap (fun j => given j k)).getLast?

def Kafka.runs (ok : Str → Bool) : Kafka → List Json → Option Kafka
  | s, [] => some s
  | s, j :: l => (s.configure ok j).bind fun s => s.runs ok l

/-- C111, full statement: the servers and the topic given last are those reported, and if there is a producer the topic is used. -/
def C111_statement : Prop :=
  ∀ ok l s, Kafka.runs ok {} l = some s →
    s.servers = (lastGiven "servers".toList l).getD [] ∧ s.topic = (lastGiven "topic".toList l).getD "data".toList ∧
    (s.producer = true → s.used = some s.topic)

/-- One message, servers and topic only. -/
theorem kafka_one (ok : Str → Bool) (s t : Kafka) (j : Json) (h : s.configure ok j = some t) :
    ∃ a b, field j "servers".toList Json.asStr = some a ∧ field j "topic".toList Json.asStr = some b ∧
      ∃ u, (upd s (Kafka.setServers ok) (some a)).bind (fun s => upd s Kafka.setTopic (some b)) = some u ∧
        t.servers = u.servers ∧ t.topic = u.topic ∧ t.producer = u.producer ∧ t.used = u.used := by
  simp only [Kafka.configure] at h
  generalize field j "servers".toList Json.asStr = a at h ⊢
  generalize field j "topic".toList Json.asStr = b at h ⊢
  generalize field j "partition".toList Json.asUint = p at h
  generalize field j "dataset".toList Json.asStr = c at h
  generalize field j "include_parameters".toList Json.asBool = d at h
  cases a with
  | none => simp [upd] at h
  | some a =>
    obtain ⟨s1, h1, h3⟩ := Option.bind_eq_some_iff.1 h
    obtain ⟨s2, h2, h4⟩ := Option.bind_eq_some_iff.1 h3
    clear h h3
    cases b with
    | none => simp [upd] at h2
    | some b =>
      refine ⟨a, b, rfl, rfl, s2, by rw [h1]; exact h2, ?_⟩
      rcases p with _ | _ | p <;> rcases c with _ | _ | c <;> rcases d with _ | _ | d <;>
        simp only [upd, Option.bind_some, Option.bind_none, Option.some.injEq, reduceCtorEq] at h4 <;> subst h4 <;> exact ⟨rfl, rfl, rfl, rfl⟩

/-- The topic in use is the one reported. -/
theorem C111_used (ok : Str → Bool) (s : Kafka) (h : Kafka.Reach ok s) : s.used = if s.producer then some s.topic else none := by
  induction h with
  | new => rfl
  | msg s t j _ hc ih =>
    obtain ⟨a, b, _, _, u, hu, h1, h2, h3, h4⟩ := kafka_one ok s t j hc
    rw [h4, h3, h2]
    have key : ∀ x : Kafka, x.used = (if x.producer then some x.topic else none) → ∀ v, (x.setServers ok v).used =
        (if (x.setServers ok v).producer then some (x.setServers ok v).topic else none) := by
      intro x _ v
      unfold Kafka.setServers
      split <;> simp
    have key2 : ∀ x : Kafka, x.used = (if x.producer then some x.topic else none) → ∀ v, (x.setTopic v).used =
        (if (x.setTopic v).producer then some (x.setTopic v).topic else none) := by
      intro x _ v
      unfold Kafka.setTopic
      split <;> simp [*]
    rcases a with _ | a <;> rcases b with _ | b <;> simp only [upd, Option.bind_some, Option.some.injEq] at hu <;> subst hu
    · exact ih
    · exact key2 s ih b
    · exact key s ih a
    · exact key2 _ (key s ih a) b

theorem lastGiven_cons (k : Str) (j : Json) (l : List Json) (d : Str) :
    (lastGiven k (j :: l)).getD d = (lastGiven k l).getD ((given j k).getD d) := by
  unfold lastGiven
  cases h : given j k with
  | none => simp [h]
  | some v =>
    rw [List.filterMap_cons_some (by exact h), List.getLast?_cons]
    cases (l.filterMap (fun j => given j k)).getLast? <;> rfl

theorem setServers_ok (ok : Str → Bool) (s : Kafka) (v : Str) (h : ok v = true) :
    s.setServers ok v = { s with servers := v, producer := true, used := some s.topic } := by
  unfold Kafka.setServers
  rw [if_pos h]

theorem setTopic_on (s : Kafka) (v : Str) (h : s.producer = true) : s.setTopic v = { s with topic := v, used := some v } := by
  unfold Kafka.setTopic
  rw [if_pos h]

/-- With a producer and servers that are accepted, what is given last holds. -/
theorem kafka_runs (ok : Str → Bool) (l : List Json) (s t : Kafka) (hp : s.producer = true)
    (hok : ∀ j ∈ l, ∀ v, given j "servers".toList = some v → ok v = true) (h : s.runs ok l = some t) :
    t.producer = true ∧ t.servers = (lastGiven "servers".toList l).getD s.servers ∧
    t.topic = (lastGiven "topic".toList l).getD s.topic := by
  induction l generalizing s with
  | nil => simp only [Kafka.runs, Option.some.injEq] at h; subst h; exact ⟨hp, rfl, rfl⟩
  | cons j l ih =>
    obtain ⟨u, hu, h⟩ := Option.bind_eq_some_iff.1 h
    obtain ⟨a, b, ha, hb, w, hw, e1, e2, e3, _⟩ := kafka_one ok s u j hu
    have ga : given j "servers".toList = a := by unfold given; rw [ha]; rfl
    have gb : given j "topic".toList = b := by unfold given; rw [hb]; rfl
    have hw2 : w.producer = true ∧ w.servers = a.getD s.servers ∧ w.topic = b.getD s.topic := by
      rcases a with _ | a <;> rcases b with _ | b <;> simp only [upd, Option.bind_some, Option.some.injEq] at hw <;> subst hw
      · exact ⟨hp, rfl, rfl⟩
      · rw [setTopic_on _ _ hp]; exact ⟨hp, rfl, rfl⟩
      · rw [setServers_ok _ _ _ (hok j (by simp) a ga)]; exact ⟨rfl, rfl, rfl⟩
      · rw [setServers_ok _ _ _ (hok j (by simp) a ga), setTopic_on _ _ rfl]; exact ⟨rfl, rfl, rfl⟩
    obtain ⟨i1, i2, i3⟩ := ih u (by rw [e3]; exact hw2.1) (fun x hx => hok x (by simp [hx])) h
    refine ⟨i1, ?_, ?_⟩
    · rw [i2, lastGiven_cons, ga, e1, hw2.2.1]
    · rw [i3, lastGiven_cons, gb, e2, hw2.2.2]

/-- C111 if the first message gives servers, and all servers given are accepted by the library. -/
theorem C111_partial (ok : Str → Bool) (j : Json) (l : List Json) (s : Kafka) (v : Str) (hv : given j "servers".toList = some v)
    (hok : ∀ x ∈ j :: l, ∀ v, given x "servers".toList = some v → ok v = true) (h : Kafka.runs ok {} (j :: l) = some s) :
    s.producer = true ∧ s.used = some s.topic ∧
    s.servers = (lastGiven "servers".toList (j :: l)).getD [] ∧ s.topic = (lastGiven "topic".toList (j :: l)).getD "data".toList := by
  have hreach : Kafka.Reach ok s := by
    have gen : ∀ (l : List Json) (x : Kafka), Kafka.Reach ok x → x.runs ok l = some s → Kafka.Reach ok s := by
      intro l
      induction l with
      | nil => intro x hx h; simp only [Kafka.runs, Option.some.injEq] at h; subst h; exact hx
      | cons j l ih =>
        intro x hx h
        obtain ⟨u, hu, h⟩ := Option.bind_eq_some_iff.1 h
        exact ih u (.msg x u j hx hu) h
    exact gen _ _ .new h
  obtain ⟨u, hu, h⟩ := Option.bind_eq_some_iff.1 h
  obtain ⟨a, b, ha, hb, w, hw, e1, e2, e3, _⟩ := kafka_one ok {} u j hu
  have ga : given j "servers".toList = a := by unfold given; rw [ha]; rfl
  have gb : given j "topic".toList = b := by unfold given; rw [hb]; rfl
  have hw2 : w.producer = true ∧ w.servers = a.getD [] ∧ w.topic = b.getD "data".toList := by
    rw [hv] at ga
    subst ga
    have hv2 := hok j (by simp) v hv
    rcases b with _ | b <;> simp only [upd, Option.bind_some, Option.some.injEq] at hw <;> subst hw
    · rw [setServers_ok _ _ _ hv2]; exact ⟨rfl, rfl, rfl⟩
    · rw [setServers_ok _ _ _ hv2, setTopic_on _ _ rfl]; exact ⟨rfl, rfl, rfl⟩
  obtain ⟨i1, i2, i3⟩ := kafka_runs ok l u s (by rw [e3]; exact hw2.1) (fun x hx => hok x (by simp [hx])) h
  refine ⟨i1, by rw [C111_used ok s hreach, i1]; rfl, ?_, ?_⟩
  · rw [i2, lastGiven_cons, ga, e1, hw2.2.1]
  · rw [i3, lastGiven_cons, gb, e2, hw2.2.2]

def topicFirst : List Json := [.obj [("topic".toList, .str "mine".toList)], .obj [("servers".toList, .str "h:9092".toList)]]

/-- A topic given before the servers is forgotten; frames go to the topic "data". -/
theorem C111_violated : ¬ C111_statement := by
  intro h
  have e : Kafka.runs (fun _ => true) {} topicFirst =
      some { servers := "h:9092".toList, producer := true, used := some "data".toList } := by decide +kernel
  have := (h _ _ _ e).2.1
  revert this
  decide +kernel

/-- Servers that are refused are not reported: those given before are, although there is no producer any more. -/
theorem C111_stale : ∃ s, Kafka.runs (fun v => v == "good".toList) {}
      [.obj [("servers".toList, .str "good".toList)], .obj [("servers".toList, .str "bad".toList)]] = some s ∧
    s.servers = "good".toList ∧ s.producer = false := ⟨{ servers := "good".toList }, by decide +kernel, rfl, rfl⟩

example : ∃ s, Kafka.runs (fun _ => true) {} [.obj [("servers".toList, .str "h".toList), ("topic".toList, .str "mine".toList)]] = some s ∧
    s.used = some "mine".toList :=
  ⟨{ servers := "h".toList, topic := "mine".toList, producer := true, used := some "mine".toList }, by decide +kernel, rfl⟩

/-! ## C112 -/

inductive Live.Reach (ok : Str → Bool) : Live → Prop
  | new : Reach ok {}
  | msg (s t : Live) (j : Json) : Reach ok s → s.configure ok j = some t → Reach ok t

/-- What decides which frames are shown, and where. -/
def Live.SameCfg (s t : Live) : Prop :=
  s.freq = t.freq ∧ s.perSecond = t.perSecond ∧ s.addr = t.addr ∧ s.datasets = t.datasets ∧ s.tags = t.tags

/-- C112, full statement. -/
def C112_statement : Prop :=
  ∀ ok s, Live.Reach ok s → ∀ n, Name n → (reply n s.report).2 = .ok ∧
    ∃ t, restore (Live.configure ok) {} n (reply n s.report).1 = some t ∧ t.SameCfg s

theorem live_restore (ok : Str → Bool) (s t : Live) (hf : isInt s.freq) (hp : isInt s.perSecond) (n : Str) (hn : Name n) :
    (reply n s.report).2 = .ok ∧ restore (Live.configure ok) t n (reply n s.report).1 =
      some (Live.setAddr ok { t with freq := s.freq, perSecond := s.perSecond } s.addr) := by
  obtain ⟨h1, h2⟩ := flat_fields n s.report ["frame_frequency".toList, "live_view_socket_addr".toList, "per_second".toList] hn rfl
    (by decide +kernel) (keys_ok _ (by decide +kernel))
  refine ⟨h1, ?_⟩
  have e1 : told s.report ["frame_frequency".toList] = some (.num s.freq) := by simp [told, Live.report]
  have e2 : told s.report ["live_view_socket_addr".toList] = some (.str s.addr) := by simp [told, Live.report]
  have e3 : told s.report ["per_second".toList] = some (.num s.perSecond) := by simp [told, Live.report]
  have e4 : told s.report ["dataset_name".toList] = none := by simp [told, Live.report]
  have e5 : told s.report ["filter_tagged".toList] = none := by simp [told, Live.report]
  rcases h2 with ⟨_, h2⟩ | ⟨m, hm, h2⟩
  · have := h2 "frame_frequency".toList (by simp)
    rw [e1] at this
    cases this
  · have a1 := (h2 _ (by decide +kernel)).trans e1
    have a2 := (h2 _ (by decide +kernel)).trans e2
    have a3 := (h2 _ (by decide +kernel)).trans e3
    have a4 := (h2 _ (by decide +kernel)).trans e4
    have a5 := (h2 _ (by decide +kernel)).trans e5
    simp only [restore, hm, Live.configure]
    rw [field_obj _ "frame_frequency".toList (by decide +kernel), field_obj _ "live_view_socket_addr".toList (by decide +kernel),
      field_obj _ "per_second".toList (by decide +kernel), field_obj _ "dataset_name".toList (by decide +kernel),
      field_obj _ "filter_tagged".toList (by decide +kernel), a1, a2, a3, a4, a5]
    simp only [asInt_ok _ hf, asInt_ok _ hp]
    rfl

/-- The socket is bound to the address reported or to none. -/
theorem C112_bound (ok : Str → Bool) (s : Live) (h : Live.Reach ok s) : s.bound = none ∨ s.bound = some s.addr := by
  induction h with
  | new => exact Or.inl rfl
  | msg s t j _ hc ih =>
    have key : ∀ (x : Live) (v : Str), (x.bound = none ∨ x.bound = some x.addr) →
        (x.setAddr ok v).bound = none ∨ (x.setAddr ok v).bound = some (x.setAddr ok v).addr := by
      intro x v hx
      unfold Live.setAddr
      split
      · exact hx
      · simp only
        split
        · exact Or.inr rfl
        · exact Or.inl rfl
    have addr : ∀ (x : Live) (v : Option Str), (x.bound = none ∨ x.bound = some x.addr) →
        (x.address ok v).bound = none ∨ (x.address ok v).bound = some (x.address ok v).addr := by
      intro x v hx
      cases v with
      | some v => exact key x v hx
      | none =>
        simp only [Live.address]
        split
        · exact key x _ hx
        · exact hx
    simp only [Live.configure] at hc
    generalize field j "frame_frequency".toList Json.asInt = a at hc
    generalize field j "per_second".toList Json.asInt = b at hc
    generalize field j "dataset_name".toList Json.asStr = c at hc
    generalize field j "filter_tagged".toList Json.asStr = d at hc
    generalize field j "live_view_socket_addr".toList Json.asStr = e at hc
    rcases a with _ | _ | a <;> rcases b with _ | _ | b <;> rcases c with _ | _ | c <;> rcases d with _ | _ | d <;> rcases e with _ | e <;>
      simp only [upd, Option.bind_some, Option.bind_none, Option.map_some, Option.map_none, Option.some.injEq, reduceCtorEq] at hc <;>
      subst hc <;> exact addr _ e ih

/-- C112 without the filters: rates and address are restored, whatever the plugin was configured to before, and the socket is bound if the
address can be bound. The filters stay as they were. -/
theorem C112_partial (ok : Str → Bool) (s t : Live) (hf : isInt s.freq) (hp : isInt s.perSecond) (ht : Live.Reach ok t) (n : Str) (hn : Name n) :
    (reply n s.report).2 = .ok ∧ ∃ u, restore (Live.configure ok) t n (reply n s.report).1 = some u ∧
      u.freq = s.freq ∧ u.perSecond = s.perSecond ∧ u.addr = s.addr ∧ (ok s.addr = true → u.bound = some s.addr) ∧
      u.datasets = t.datasets ∧ u.tags = t.tags := by
  obtain ⟨h1, h2⟩ := live_restore ok s t hf hp n hn
  refine ⟨h1, _, h2, ?_⟩
  have hb := C112_bound ok t ht
  unfold Live.setAddr
  split
  · rename_i h
    dsimp only at h ⊢
    rw [h] at hb
    rcases hb with hb | hb
    · cases hb
    · simp only [Option.some.injEq] at hb
      exact ⟨rfl, rfl, hb.symm, fun _ => h, rfl, rfl⟩
  · refine ⟨rfl, rfl, rfl, fun h => ?_, rfl, rfl⟩
    simp only [h, if_true]

/-- A restored plugin shows frames of all datasets. -/
theorem C112_violated : ¬ C112_statement := by
  intro h
  have hr : Live.Reach (fun _ => true) { datasets := ["raw".toList], addr := "tcp://127.0.0.1:5020".toList, bound := some "tcp://127.0.0.1:5020".toList } :=
    .msg {} _ (.obj [("dataset_name".toList, .str "raw".toList)]) .new (by decide +kernel)
  have hn : Name "view".toList := ⟨plain_of _ (by decide +kernel), by decide +kernel⟩
  obtain ⟨_, t, ht, hs⟩ := h _ _ hr "view".toList hn
  obtain ⟨_, u, hu, _, _, _, _, hd, _⟩ := C112_partial (fun _ => true)
    { datasets := ["raw".toList], addr := "tcp://127.0.0.1:5020".toList, bound := some "tcp://127.0.0.1:5020".toList } {} (by simp [isInt]) (by simp [isInt])
    .new "view".toList hn
  rw [hu] at ht
  simp only [Option.some.injEq] at ht
  subst ht
  have := hs.2.2.2.1
  rw [hd] at this
  cases this

/-- An address that cannot be bound leaves the socket without address; the one bound before is gone. -/
theorem C112_unbound (ok : Str → Bool) (s : Live) (v : Str) (h : ok v = false) (hb : s.bound ≠ some v) :
    (s.setAddr ok v).bound = none ∧ (s.setAddr ok v).addr = v := by
  unfold Live.setAddr
  rw [if_neg hb]
  simp [h]

/-! ## C113 -/

/-- Names written one after the other, with commas between them. -/
def commas : List Str → Str
  | [] => []
  | [n] => n
  | n :: l => n ++ ',' :: commas l

theorem splitComma_plain (s : Str) (h : ',' ∉ s) : splitComma s = [s] := by
  induction s with
  | nil => rfl
  | cons c s ih =>
    simp only [List.mem_cons, not_or] at h
    simp only [splitComma, if_neg (Ne.symm h.1), ih h.2]

theorem splitComma_cons (n s : Str) (h : ',' ∉ n) : splitComma (n ++ ',' :: s) = n :: splitComma s := by
  induction n with
  | nil => simp [splitComma]
  | cons c n ih =>
    simp only [List.mem_cons, not_or] at h
    simp only [List.cons_append, splitComma, if_neg (Ne.symm h.1), ih h.2]

theorem splitComma_commas (l : List Str) (h : l ≠ []) (hc : ∀ n ∈ l, ',' ∉ n) : splitComma (commas l) = l := by
  induction l with
  | nil => exact absurd rfl h
  | cons n l ih =>
    cases l with
    | nil => exact splitComma_plain n (hc n (by simp))
    | cons m l =>
      rw [show commas (n :: m :: l) = n ++ ',' :: commas (m :: l) from rfl, splitComma_cons n _ (hc n (by simp)),
        ih (by simp) (fun x hx => hc x (by simp [hx]))]

/-- Neither begins nor ends with a blank. -/
def Trimmed (n : Str) : Prop := (∀ c, n.head? = some c → blank c = false) ∧ ∀ c, n.getLast? = some c → blank c = false

theorem trimLeft_blanks (a n : Str) (h : ∀ c ∈ a, blank c = true) (hn : ∀ c, n.head? = some c → blank c = false) : trimLeft (a ++ n) = n := by
  induction a with
  | nil =>
    cases n with
    | nil => rfl
    | cons c n => simp [trimLeft, hn c rfl]
  | cons c a ih =>
    simp only [List.cons_append, trimLeft, h c (by simp), if_true]
    exact ih (fun x hx => h x (by simp [hx]))

theorem trimLeft_all (a : Str) (h : ∀ c ∈ a, blank c = true) : trimLeft a = [] := by
  have := trimLeft_blanks a [] h (by simp)
  simpa using this

theorem trim_padded (a n b : Str) (ha : ∀ c ∈ a, blank c = true) (hb : ∀ c ∈ b, blank c = true) (hn : Trimmed n) : trim (a ++ n ++ b) = n := by
  unfold trim
  cases n with
  | nil =>
    rw [List.append_nil, trimLeft_all (a ++ b) (fun c hc => by
      rcases List.mem_append.1 hc with h | h
      · exact ha c h
      · exact hb c h)]
    rfl
  | cons x n =>
    rw [List.append_assoc, trimLeft_blanks a _ ha (fun c hc => hn.1 c (by simpa using hc)), List.reverse_append,
      trimLeft_blanks b.reverse _ (fun c hc => hb c (by simpa using hc)) (fun c hc => hn.2 c (by rw [← hc, List.head?_reverse]))]
    simp

/-- C113: names without commas, with blanks around them, are read as written; blanks inside a name stay. -/
theorem C113 (l : List (Str × Str × Str)) (hl : l ≠ []) (hc : ∀ x ∈ l, ',' ∉ x.2.1) (ht : ∀ x ∈ l, Trimmed x.2.1)
    (hb : ∀ x ∈ l, (∀ c ∈ x.1, blank c = true) ∧ ∀ c ∈ x.2.2, blank c = true)
    (hne : commas (l.map (fun x => x.1 ++ x.2.1 ++ x.2.2)) ≠ []) :
    namesOf (commas (l.map (fun x => x.1 ++ x.2.1 ++ x.2.2))) = l.map (·.2.1) := by
  unfold namesOf
  rw [if_neg hne, splitComma_commas _ (by simpa using hl), List.map_map]
  · apply List.map_congr_left
    intro x hx
    exact trim_padded _ _ _ (hb x hx).1 (hb x hx).2 (ht x hx)
  · intro n hn
    obtain ⟨x, hx, rfl⟩ := List.mem_map.1 hn
    have nb : ∀ a : Str, (∀ c ∈ a, blank c = true) → ',' ∉ a := by
      intro a ha hm
      have := ha _ hm
      revert this
      decide
    simp only [List.mem_append, not_or]
    exact ⟨⟨nb _ (hb x hx).1, hc x hx⟩, nb _ (hb x hx).2⟩

/-- An empty text is no filter. -/
theorem C113_empty : namesOf [] = [] := rfl

/-- A text of blanks is a filter with an empty name. -/
theorem C113_blank (s : Str) (h : s ≠ []) (hb : ∀ c ∈ s, blank c = true) : namesOf s = [[]] := by
  have := C113 [(s, [], [])] (by simp) (by simp) (by simp [Trimmed]) (by simp; exact hb) (by simpa [commas] using h)
  simpa [commas] using this

/-- A comma at the end adds an empty name. -/
theorem C113_trailing (n : Str) (hn : ',' ∉ n) (ht : Trimmed n) : namesOf (n ++ [',']) = [n, []] := by
  have := C113 [([], n, []), ([], [], [])] (by simp) (by simp [hn]) (by simp [ht]; simp [Trimmed]) (by simp) (by simp [commas])
  simpa [commas] using this

example : namesOf " raw,  dark field\t,x".toList = ["raw".toList, "dark field".toList, "x".toList] := by decide +kernel

end Verif.PluginConfig
