import Verif.Model.ProcessorReport
import Verif.Props.ReceiverReport
import Verif.Props.Dispatch
/-! Property C188: the configuration that a frame processor reports restores it. -/
namespace Verif.ProcessorReport
open Verif.Ipc Verif.Dispatch.Spec Verif.Dispatch

/-! ## What is meant -/

/-- The settings of the controller. -/
def reserved : List Str :=
  ["frames", "debug_level", "ctrl_endpoint", "meta_endpoint", "plugin", "fr_setup", "store", "execute", "clear_errors", "inject_eoa"].map String.toList

/-- Plugins with names of their own; a plugin `hdf` reports a master dataset that is a text, or none. -/
structure Fine (l : List (Str × Json)) : Prop where
  plain : ∀ x ∈ l, '/' ∉ x.1 ∧ isArray x.1 = some false ∧ x.1 ∉ reserved
  once : (l.map (·.1)).Nodup
  master : ∀ x ∈ l, x.1 = "hdf".toList → ∃ m, x.2 = .obj m ∧ ∀ v, member m "master".toList = some v → v.asStr.isSome = true

/-- What a network does: an endpoint can be bound once, an empty one not at all; and the plugins accept what they reported. -/
structure Usual (e : Env) : Prop where
  bind : ∀ b x, e.bind b x = true ↔ x ≠ [] ∧ x ∉ b
  connect : ∀ x, e.connect x = true ↔ x ≠ []
  take : ∀ n s, e.take n s s = some s

/-- The processors there are: with any plugins loaded, after any messages. -/
inductive Reach (e : Env) : Proc → Prop
  | new : Reach e {}
  | load (p : Proc) (l : List (Str × Json)) : Reach e p → Reach e { p with plugins := l }
  | msg (p : Proc) (j : Json) : Reach e p → Reach e (configure e j p).1

/-- The full claim: a processor that is sent the configuration it reports accepts it, and stays as it is. -/
def C188_statement : Prop :=
  ∀ e p, Usual e → Reach e p → Fine p.plugins → ∀ j, report p = (j, .ok) →
    (configure e j p).2 = true ∧ (configure e j p).1.ctrl = p.ctrl ∧ (configure e j p).1.plugins = p.plugins

/-! ## The report -/

def frPart (p : Proc) : Json := .obj [("fr_ready_cnxn".toList, .str p.ready), ("fr_release_cnxn".toList, .str p.release)]

def members (p : Proc) : List (Str × Json) :=
  [("ctrl_endpoint".toList, .str p.ctrl), ("meta_endpoint".toList, .str p.metaTx), ("fr_setup".toList, frPart p)] ++ p.plugins

theorem getlines_plain (n : Str) (h : '/' ∉ n) (h2 : isArray n = some false) : getlines n = [n] := by
  have hne : n ≠ [] := by rintro rfl; simp [isArray] at h2
  unfold getlines
  rw [splitAll_plain n h]
  simp [hne]

theorem report_ok (p : Proc) (h : Fine p.plugins) : report p = (.obj (members p), .ok) := by
  unfold report calls
  have e1 : Receiver.setAll (.obj []) [("ctrl_endpoint".toList, Json.str p.ctrl), ("meta_endpoint".toList, .str p.metaTx),
      ("fr_setup/fr_ready_cnxn".toList, .str p.ready), ("fr_setup/fr_release_cnxn".toList, .str p.release)] =
      (.obj [("ctrl_endpoint".toList, .str p.ctrl), ("meta_endpoint".toList, .str p.metaTx), ("fr_setup".toList, frPart p)], .ok) := by
    rw [Receiver.setAll_ok _ _ _ _ _ (Receiver.set_flat [] "ctrl_endpoint".toList _ (by decide +kernel) (by decide +kernel) rfl)]
    rw [Receiver.setAll_ok _ _ _ _ _ (Receiver.set_flat _ "meta_endpoint".toList _ (by decide +kernel) (by decide +kernel)
      (findM_none _ _ (by simp only [List.nil_append, List.map]; decide +kernel)))]
    have hf : findM ([] ++ [("ctrl_endpoint".toList, Json.str p.ctrl)] ++ [("meta_endpoint".toList, .str p.metaTx)]) "fr_setup".toList = none :=
      findM_none _ _ (by simp only [List.nil_append, List.cons_append, List.map]; decide +kernel)
    rw [Receiver.setAll_ok _ _ _ _ _ (Receiver.set_new _ _ "fr_setup".toList "fr_ready_cnxn".toList _ (by decide +kernel) (by decide +kernel)
      (by decide +kernel) hf)]
    rw [Receiver.setAll_ok _ _ _ _ _ (Receiver.set_in _ _ _ "fr_setup".toList "fr_release_cnxn".toList _ (by decide +kernel) (by decide +kernel)
      (by decide +kernel) (Receiver.findM_last _ _ _ hf) (findM_none _ _ (by simp only [List.map]; decide +kernel))), Receiver.setM_last _ _ _ _ hf]
    rfl
  rw [Receiver.setAll_append _ _ _ _ e1, Receiver.setAll_flat _ _ ?_ h.once]
  · rfl
  · intro x hx
    obtain ⟨h1, h2, h3⟩ := h.plain x hx
    refine ⟨getlines_plain _ h1 h2, h2, findM_none _ _ ?_⟩
    intro hm
    apply h3
    simp only [List.map, List.mem_cons, List.not_mem_nil, or_false] at hm
    simp only [reserved, List.map, List.mem_cons]
    rcases hm with hm | hm | hm <;> simp [hm]

theorem member_append (a b : List (Str × Json)) (n : Str) : member (a ++ b) n = (member a n).or (member b n) := by
  induction a with
  | nil => rfl
  | cons x a ih =>
    obtain ⟨k, v⟩ := x
    simp only [List.cons_append, member]
    split
    · rfl
    · exact ih

theorem member_mem (l : List (Str × Json)) (n : Str) (v : Json) (h : member l n = some v) : (n, v) ∈ l := by
  induction l with
  | nil => cases h
  | cons x l ih =>
    obtain ⟨k, w⟩ := x
    simp only [member] at h
    split at h
    · next hk => cases h; subst hk; exact List.mem_cons_self
    · exact List.mem_cons_of_mem _ (ih h)

theorem member_of (l : List (Str × Json)) (n : Str) (v : Json) (hd : (l.map (·.1)).Nodup) (h : (n, v) ∈ l) : member l n = some v := by
  induction l with
  | nil => cases h
  | cons x l ih =>
    obtain ⟨k, w⟩ := x
    rw [List.map_cons, List.nodup_cons] at hd
    simp only [member]
    rcases List.mem_cons.1 h with h | h
    · cases h; rw [if_pos rfl]
    · have : k ≠ n := by
        rintro rfl
        exact hd.1 (List.mem_map.2 ⟨_, h, rfl⟩)
      rw [if_neg this]
      exact ih hd.2 h

/-- The texts of the report. -/
theorem text_found (l : List (Str × Json)) (name : String) (x : Str) (hs : '/' ∉ name.toList) (h : member l name.toList = some (.str x)) :
    text (.obj l) name = some (some x) := by
  unfold text
  rw [has_plain l _ hs, get_plain l _ hs, h]
  rfl

theorem text_ctrl (p : Proc) : text (.obj (members p)) "ctrl_endpoint" = some (some p.ctrl) :=
  text_found _ _ _ (by decide +kernel) (by rfl)

theorem text_meta (p : Proc) : text (.obj (members p)) "meta_endpoint" = some (some p.metaTx) :=
  text_found _ _ _ (by decide +kernel) (by rfl)

theorem fr_found (e : Env) (q p : Proc) : setFr e (.obj (members q)) p = setupFr e q.release q.ready p := by
  have hs : '/' ∉ "fr_setup".toList := by decide +kernel
  have hm : member (members q) "fr_setup".toList = some (frPart q) := by rfl
  have h1 : '/' ∉ "fr_release_cnxn".toList := by decide +kernel
  have h2 : '/' ∉ "fr_ready_cnxn".toList := by decide +kernel
  have m1 : member [("fr_ready_cnxn".toList, Json.str q.ready), ("fr_release_cnxn".toList, .str q.release)] "fr_release_cnxn".toList = some (.str q.release) := by rfl
  have m2 : member [("fr_ready_cnxn".toList, Json.str q.ready), ("fr_release_cnxn".toList, .str q.release)] "fr_ready_cnxn".toList = some (.str q.ready) := by rfl
  have hf : setFrOf e (frPart q) p = setupFr e q.release q.ready p := by
    unfold setFrOf frPart
    rw [has_plain _ _ h1, has_plain _ _ h2, m1, m2]
    simp only [Option.isSome_some]
    unfold frTexts
    rw [text_found _ _ _ h1 m1, text_found _ _ _ h2 m2]
  unfold setFr
  rw [has_plain _ _ hs, get_plain _ _ hs, hm]
  simp only [Option.isSome_some]
  exact hf

/-- The master dataset: set to what the plugin `hdf` reports, if there is one; never refused. -/
theorem master_report (q p : Proc) (h : Fine q.plugins) : ∃ x, setMaster (.obj (members q)) p = ({ p with master := x }, true) := by
  have hs : splitAll "hdf/master".toList = ["hdf".toList, "master".toList] := by decide +kernel
  have hm : member (members q) "hdf".toList = member q.plugins "hdf".toList := by
    unfold members
    rw [member_append]
    have : member [("ctrl_endpoint".toList, Json.str q.ctrl), ("meta_endpoint".toList, .str q.metaTx), ("fr_setup".toList, frPart q)] "hdf".toList = none := by rfl
    rw [this]
    rfl
  have keep : p = { p with master := p.master } := rfl
  unfold setMaster text hasParam getParam
  simp only [hs, has, Option.bind_some, Ipc.get, findM_member, hm]
  cases hv : member q.plugins "hdf".toList with
  | none => exact ⟨p.master, rfl⟩
  | some v =>
    obtain ⟨m, hm1, hm2⟩ := h.master _ (member_mem _ _ _ hv) rfl
    subst hm1
    simp only [has, findM_member, Option.bind_some, Ipc.get]
    cases hw : member m "master".toList with
    | none => exact ⟨p.master, rfl⟩
    | some w =>
      have := hm2 w hw
      obtain ⟨x, hx⟩ := Option.isSome_iff_exists.1 this
      simp only [Option.bind_some, hx, Option.map_some]
      exact ⟨x, rfl⟩

/-! ## To the same processor -/

theorem next_stop (r : Proc × Bool) (f : Proc → Proc × Bool) (h : r.2 = false) : next r f = r := by unfold next; rw [h]; rfl

theorem next_go (q : Proc) (f : Proc → Proc × Bool) : next (q, true) f = f q := rfl

/-- An endpoint of the report that cannot be bound: the report is refused, and nothing of it is applied but the name of the master dataset. -/
theorem C188_refused (e : Env) (q p : Proc) (h : Fine q.plugins) (hb : e.bind p.bound q.ctrl = false) :
    ∃ x, configure e (report q).1 p = ({ p with master := x }, false) := by
  obtain ⟨x, hx⟩ := master_report q p h
  refine ⟨x, ?_⟩
  rw [report_ok q h]
  unfold configure
  rw [hx, next_go]
  have hc : setCtrl e (.obj (members q)) { p with master := x } = ({ p with master := x }, false) := by
    unfold setCtrl
    rw [text_ctrl]
    simp only [bindCtrl, hb]
    rfl
  rw [hc, next_stop _ _ rfl, next_stop _ _ rfl, next_stop _ _ rfl]

theorem next_pres (P : Proc → Prop) (r : Proc × Bool) (f : Proc → Proc × Bool) (hr : P r.1) (hf : ∀ p, P p → P (f p).1) : P (next r f).1 := by
  unfold next
  split
  · exact hf _ hr
  · exact hr

/-- The control endpoint is bound, if there is one. -/
def Held (p : Proc) : Prop := p.ctrl = [] ∨ p.ctrl ∈ p.bound

theorem configure_held (e : Env) (j : Json) (p : Proc) (h : Held p) : Held (configure e j p).1 := by
  unfold configure
  refine next_pres Held _ _ (next_pres Held _ _ (next_pres Held _ _ (next_pres Held _ _ ?_ ?_) ?_) ?_) ?_
  · unfold setMaster
    split <;> exact h
  · intro p h
    unfold setCtrl
    split
    · exact h
    · exact h
    · unfold bindCtrl
      split
      · exact h
      · next hq =>
        split at hq
        · cases hq; exact Or.inr List.mem_cons_self
        · cases hq
  · intro p h
    unfold setMeta
    split
    · exact h
    · exact h
    · unfold bindMeta
      split
      · exact h
      · next hq =>
        split at hq
        · cases hq
          exact h.imp id (List.mem_cons_of_mem _)
        · cases hq
  · intro p h
    unfold setFr
    have hs : ∀ a b, Held (setupFr e a b p).1 := by
      intro a b
      unfold setupFr
      split
      · exact h
      · split <;> exact h
    split
    · exact h
    · exact h
    · split
      · exact h
      · unfold setFrOf frTexts
        split
        · exact h
        · exact h
        · split
          · exact h
          · exact h
          · split
            · exact hs _ _
            · exact h
  · intro p h
    exact h

theorem reach_held (e : Env) (p : Proc) (h : Reach e p) : Held p := by
  induction h with
  | new => exact Or.inl rfl
  | load p l _ ih => exact ih
  | msg p j _ ih => exact configure_held e j p ih

/-- No processor accepts the configuration that it reports. -/
theorem C188_own (e : Env) (p : Proc) (hu : Usual e) (h : Reach e p) (hf : Fine p.plugins) :
    (report p).2 = .ok ∧ ∃ x, configure e (report p).1 p = ({ p with master := x }, false) := by
  refine ⟨by rw [report_ok p hf], C188_refused e p p hf ?_⟩
  cases hb : e.bind p.bound p.ctrl with
  | false => rfl
  | true =>
    obtain ⟨h1, h2⟩ := (hu.bind _ _).1 hb
    rcases reach_held e p h with h | h
    · exact absurd h h1
    · exact absurd h h2

/-- A usual network. -/
def usual : Env :=
  { bind := fun b x => decide (x ≠ [] ∧ x ∉ b), connect := fun x => decide (x ≠ []), take := fun _ _ v => some v }

theorem usual_ok : Usual usual := ⟨fun b x => by simp [usual], fun x => by simp [usual], fun _ _ => rfl⟩

/-- The claim is false. -/
theorem C188_violated : ¬ C188_statement := by
  intro h
  have hf : Fine ([] : List (Str × Json)) := ⟨by simp, by simp, by simp⟩
  have hr := report_ok {} hf
  have h1 := (h usual {} usual_ok .new hf _ hr).1
  obtain ⟨_, x, h2⟩ := C188_own usual {} usual_ok .new hf
  rw [hr] at h2
  rw [h2] at h1
  cases h1

/-! ## To another processor -/

/-- The loop over the plugins, for a processor that has plugins of the same names. -/
theorem plugins_restored (e : Env) (l : List (Str × Json)) (a b : List (Str × Json)) (hn : a.map (·.1) = b.map (·.1))
    (hp : ∀ x ∈ b, '/' ∉ x.1 ∧ member l x.1 = some x.2) (ht : ∀ n s v, (n, s) ∈ a → (n, v) ∈ b → e.take n s v = some v) :
    setPlugins e (.obj l) a = (b, true) := by
  induction a generalizing b with
  | nil =>
    cases b with
    | nil => rfl
    | cons y b => cases hn
  | cons x a ih =>
    cases b with
    | nil => cases hn
    | cons y b =>
      obtain ⟨n, s⟩ := x
      obtain ⟨k, v⟩ := y
      simp only [List.map_cons, List.cons.injEq] at hn
      obtain ⟨rfl, hn⟩ := hn
      obtain ⟨h1, h2⟩ := hp (n, v) List.mem_cons_self
      have ih := ih b hn (fun y hy => hp y (List.mem_cons_of_mem _ hy)) fun m s w h3 h4 => ht m s w (List.mem_cons_of_mem _ h3) (List.mem_cons_of_mem _ h4)
      unfold setPlugins
      rw [has_plain _ _ h1, get_plain _ _ h1, h2, ih]
      simp only [Option.isSome_some, Option.bind_some, ht n s v List.mem_cons_self List.mem_cons_self]

/-- Plugins that are not there: their parts are passed over. -/
theorem plugins_absent (e : Env) (l : List (Str × Json)) (a : List (Str × Json)) (h : ∀ x ∈ a, '/' ∉ x.1 ∧ member l x.1 = none) :
    setPlugins e (.obj l) a = (a, true) := by
  induction a with
  | nil => rfl
  | cons x a ih =>
    obtain ⟨n, s⟩ := x
    obtain ⟨h1, h2⟩ := h (n, s) List.mem_cons_self
    have ih := ih fun y hy => h y (List.mem_cons_of_mem _ hy)
    unfold setPlugins
    rw [has_plain _ _ h1, h2, ih]
    rfl

theorem member_report (q : Proc) (n : Str) (hn : n ∉ reserved) : member (members q) n = member q.plugins n := by
  unfold members
  rw [member_append]
  have : member [("ctrl_endpoint".toList, Json.str q.ctrl), ("meta_endpoint".toList, .str q.metaTx), ("fr_setup".toList, frPart q)] n = none := by
    have h1 : "ctrl_endpoint".toList ≠ n := fun e => hn (e ▸ by decide +kernel)
    have h2 : "meta_endpoint".toList ≠ n := fun e => hn (e ▸ by decide +kernel)
    have h3 : "fr_setup".toList ≠ n := fun e => hn (e ▸ by decide +kernel)
    rw [member, if_neg h1, member, if_neg h2, member, if_neg h3, member]
  rw [this]
  rfl

theorem setup_connected (e : Env) (pub sub : Str) (p : Proc) (h1 : e.connect sub = true) (h2 : e.connect pub = true) :
    setupFr e pub sub p = (attach pub sub p, true) := by
  unfold setupFr
  by_cases hc : (p.shm && decide (pub = p.release) && decide (sub = p.ready)) = true
  · rw [if_pos hc]
    simp only [Bool.and_eq_true, decide_eq_true_eq] at hc
    obtain ⟨⟨a, b⟩, c⟩ := hc
    unfold attach
    rw [b, c, ← a]
  · rw [if_neg hc, h1, h2]
    rfl

/-- The parts of the controller, where the endpoints can be bound and connected to. -/
theorem endpoints_restored (e : Env) (q p : Proc) (h : Fine q.plugins) (h1 : e.bind p.bound q.ctrl = true)
    (h2 : e.bind (q.ctrl :: p.bound) q.metaTx = true) (h3 : e.connect q.ready = true) (h4 : e.connect q.release = true) :
    ∃ x, configure e (report q).1 p = plugIn e (.obj (members q))
      { p with ctrl := q.ctrl, metaTx := q.metaTx, ready := q.ready, release := q.release, master := x, shm := true,
               bound := q.metaTx :: q.ctrl :: p.bound } := by
  obtain ⟨x, hx⟩ := master_report q p h
  refine ⟨x, ?_⟩
  rw [report_ok q h]
  unfold configure
  rw [hx, next_go]
  have hc : setCtrl e (.obj (members q)) { p with master := x } = ({ p with master := x, ctrl := q.ctrl, bound := q.ctrl :: p.bound }, true) := by
    unfold setCtrl
    rw [text_ctrl]
    simp only [bindCtrl, h1]
    rfl
  rw [hc, next_go]
  have hm : setMeta e (.obj (members q)) { p with master := x, ctrl := q.ctrl, bound := q.ctrl :: p.bound } =
      ({ p with master := x, ctrl := q.ctrl, metaTx := q.metaTx, bound := q.metaTx :: q.ctrl :: p.bound }, true) := by
    unfold setMeta
    rw [text_meta]
    simp only [bindMeta, h2]
    rfl
  rw [hm, next_go, fr_found, setup_connected e _ _ _ h3 h4, next_go]
  rfl

/-- For another processor, which has plugins of the same names: it accepts the report, and has the same endpoints and the same settings of the
plugins, if its endpoints can be bound and connected to and the plugins accept what is reported. Missing: the same processor, and plugins that
are not loaded. -/
theorem C188_partial (e : Env) (q p : Proc) (h : Fine q.plugins) (hn : p.plugins.map (·.1) = q.plugins.map (·.1))
    (h1 : e.bind p.bound q.ctrl = true) (h2 : e.bind (q.ctrl :: p.bound) q.metaTx = true) (h3 : e.connect q.ready = true)
    (h4 : e.connect q.release = true) (ht : ∀ n s v, (n, s) ∈ p.plugins → (n, v) ∈ q.plugins → e.take n s v = some v) :
    ∃ r, configure e (report q).1 p = (r, true) ∧ r.ctrl = q.ctrl ∧ r.metaTx = q.metaTx ∧ r.ready = q.ready ∧ r.release = q.release ∧
      r.shm = true ∧ r.plugins = q.plugins ∧ report r = report q := by
  obtain ⟨x, hx⟩ := endpoints_restored e q p h h1 h2 h3 h4
  have hp := plugins_restored e (members q) p.plugins q.plugins hn
    (fun y hy => ⟨(h.plain y hy).1, by rw [member_report q _ (h.plain y hy).2.2]; exact member_of _ _ _ h.once hy⟩) ht
  unfold plugIn at hx
  simp only [hp] at hx
  refine ⟨_, hx, rfl, rfl, rfl, rfl, rfl, rfl, ?_⟩
  rfl

/-- The loop over the plugins, where one refuses: those before it have what is reported, it and those after it have what they had. -/
theorem plugins_stopped (e : Env) (l : List (Str × Json)) (a b : List (Str × Json)) (n : Str) (s v : Json) (c : List (Str × Json))
    (hn : a.map (·.1) = b.map (·.1)) (hp : ∀ x ∈ b, '/' ∉ x.1 ∧ member l x.1 = some x.2)
    (ht : ∀ n s v, (n, s) ∈ a → (n, v) ∈ b → e.take n s v = some v) (h1 : '/' ∉ n) (h2 : member l n = some v) (h3 : e.take n s v = none) :
    setPlugins e (.obj l) (a ++ (n, s) :: c) = (b ++ (n, s) :: c, false) := by
  induction a generalizing b with
  | nil =>
    cases b with
    | nil =>
      show setPlugins e (.obj l) ((n, s) :: c) = _
      unfold setPlugins
      rw [has_plain _ _ h1, get_plain _ _ h1, h2]
      simp only [Option.isSome_some, Option.bind_some, h3]
      rfl
    | cons y b => cases hn
  | cons x a ih =>
    cases b with
    | nil => cases hn
    | cons y b =>
      obtain ⟨m, s'⟩ := x
      obtain ⟨k, w⟩ := y
      simp only [List.map_cons, List.cons.injEq] at hn
      obtain ⟨rfl, hn⟩ := hn
      obtain ⟨g1, g2⟩ := hp (m, w) List.mem_cons_self
      have ih := ih b hn (fun y hy => hp y (List.mem_cons_of_mem _ hy)) fun m s w h3 h4 => ht m s w (List.mem_cons_of_mem _ h3) (List.mem_cons_of_mem _ h4)
      rw [List.cons_append]
      unfold setPlugins
      rw [has_plain _ _ g1, get_plain _ _ g1, g2, ih]
      simp only [Option.isSome_some, Option.bind_some, ht m s' w List.mem_cons_self List.mem_cons_self]
      rfl

/-- A plugin that refuses what is reported: the report is refused, but the endpoints and the plugins before this one are changed already, and
the plugins after it do not see the report. -/
theorem C188_half (e : Env) (q p : Proc) (h : Fine q.plugins) (a b c c' : List (Str × Json)) (n : Str) (s v : Json)
    (ep : p.plugins = a ++ (n, s) :: c) (eq : q.plugins = b ++ (n, v) :: c') (hn : a.map (·.1) = b.map (·.1))
    (h1 : e.bind p.bound q.ctrl = true) (h2 : e.bind (q.ctrl :: p.bound) q.metaTx = true) (h3 : e.connect q.ready = true)
    (h4 : e.connect q.release = true) (ht : ∀ n s v, (n, s) ∈ a → (n, v) ∈ b → e.take n s v = some v) (hv : e.take n s v = none) :
    ∃ r, configure e (report q).1 p = (r, false) ∧ r.ctrl = q.ctrl ∧ r.metaTx = q.metaTx ∧ r.ready = q.ready ∧ r.release = q.release ∧
      r.shm = true ∧ r.plugins = b ++ (n, s) :: c := by
  obtain ⟨x, hx⟩ := endpoints_restored e q p h h1 h2 h3 h4
  have hm : ∀ y ∈ q.plugins, '/' ∉ y.1 ∧ member (members q) y.1 = some y.2 := fun y hy =>
    ⟨(h.plain y hy).1, by rw [member_report q _ (h.plain y hy).2.2]; exact member_of _ _ _ h.once hy⟩
  have hy : (n, v) ∈ q.plugins := by rw [eq]; simp
  have hp := plugins_stopped e (members q) a b n s v c hn (fun y hy => hm y (by rw [eq]; simp [hy])) ht (hm _ hy).1 (hm _ hy).2 hv
  rw [← ep] at hp
  unfold plugIn at hx
  simp only [hp] at hx
  exact ⟨_, hx, rfl, rfl, rfl, rfl, rfl, rfl⟩

/-- A setting with one endpoint of the frame receiver only is passed over, without an error. -/
theorem C188_single (e : Env) (l : List (Str × Json)) (p : Proc)
    (h : member l "fr_release_cnxn".toList = none ∨ member l "fr_ready_cnxn".toList = none) :
    setFr e (.obj [("fr_setup".toList, .obj l)]) p = (p, true) := by
  have h1 : '/' ∉ "fr_setup".toList := by decide +kernel
  have h2 : '/' ∉ "fr_release_cnxn".toList := by decide +kernel
  have h3 : '/' ∉ "fr_ready_cnxn".toList := by decide +kernel
  unfold setFr
  rw [has_plain _ _ h1, get_plain _ _ h1, member, if_pos rfl]
  show setFrOf e (.obj l) p = _
  unfold setFrOf
  rw [has_plain _ _ h2, has_plain _ _ h3]
  rcases h with h | h
  · rw [h]
    rfl
  · rw [h]
    cases member l "fr_release_cnxn".toList <;> rfl

/-- A processor that has none of the plugins: it accepts the report too, and what the plugins reported is lost. -/
theorem C188_unloaded (e : Env) (q p : Proc) (h : Fine q.plugins) (hf : Fine p.plugins) (hn : ∀ x ∈ p.plugins, x.1 ∉ q.plugins.map (·.1))
    (h1 : e.bind p.bound q.ctrl = true) (h2 : e.bind (q.ctrl :: p.bound) q.metaTx = true) (h3 : e.connect q.ready = true)
    (h4 : e.connect q.release = true) : ∃ r, configure e (report q).1 p = (r, true) ∧ r.plugins = p.plugins := by
  obtain ⟨x, hx⟩ := endpoints_restored e q p h h1 h2 h3 h4
  have hp := plugins_absent e (members q) p.plugins fun y hy => ⟨(hf.plain y hy).1, by
    rw [member_report q _ (hf.plain y hy).2.2]
    cases hm : member q.plugins y.1 with
    | none => rfl
    | some v => exact absurd (List.mem_map.2 ⟨_, member_mem _ _ _ hm, rfl⟩) (hn y hy)⟩
  unfold plugIn at hx
  simp only [hp] at hx
  exact ⟨_, hx, rfl⟩

/-- The report of a processor that has no frame receiver: its endpoints are empty texts. A processor that has one loses it, refuses the report
without its plugins having seen it, and goes on reporting the endpoints of the connection that is gone. -/
theorem C188_lost (e : Env) (q p : Proc) (h : Fine q.plugins) (hq : q.ready = []) (hr : p.ready ≠ []) (hc : e.connect [] = false)
    (h1 : e.bind p.bound q.ctrl = true) (h2 : e.bind (q.ctrl :: p.bound) q.metaTx = true) :
    ∃ r, configure e (report q).1 p = (r, false) ∧ r.shm = false ∧ r.ready = p.ready ∧ r.release = p.release ∧ r.plugins = p.plugins := by
  obtain ⟨x, hx⟩ := master_report q p h
  rw [report_ok q h]
  unfold configure
  rw [hx, next_go]
  have hc1 : setCtrl e (.obj (members q)) { p with master := x } = ({ p with master := x, ctrl := q.ctrl, bound := q.ctrl :: p.bound }, true) := by
    unfold setCtrl
    rw [text_ctrl]
    simp only [bindCtrl, h1]
    rfl
  rw [hc1, next_go]
  have hm : setMeta e (.obj (members q)) { p with master := x, ctrl := q.ctrl, bound := q.ctrl :: p.bound } =
      ({ p with master := x, ctrl := q.ctrl, metaTx := q.metaTx, bound := q.metaTx :: q.ctrl :: p.bound }, true) := by
    unfold setMeta
    rw [text_meta]
    simp only [bindMeta, h2]
    rfl
  rw [hm, next_go, fr_found]
  have hs : ∀ t : Proc, t.ready ≠ [] → setupFr e q.release q.ready t = (drop t, false) := by
    intro t ht
    unfold setupFr
    have hne : ¬ ([] : Str) = t.ready := fun h => ht h.symm
    rw [hq, hc]
    simp [hne]
  have hd := hs { p with master := x, ctrl := q.ctrl, metaTx := q.metaTx, bound := q.metaTx :: q.ctrl :: p.bound } hr
  rw [hd, next_stop _ _ rfl]
  exact ⟨_, rfl, rfl, rfl, rfl, rfl⟩

/-- Non-vacuity: a processor with a file writer, and one that has just been started with the same plugin. -/
def writer : Proc :=
  { ctrl := "tcp://a:5004".toList, metaTx := "tcp://a:5008".toList, ready := "tcp://b:5001".toList, release := "tcp://b:5002".toList, shm := true,
    bound := ["tcp://a:5004".toList, "tcp://a:5008".toList],
    plugins := [("blosc".toList, .obj [("level".toList, .num 4)]), ("hdf".toList, .obj [("master".toList, .str "data".toList)])] }

/-- Two plugins whose names are fine. -/
theorem fine_two (v : Json) (x : Str) : Fine [("blosc".toList, v), ("hdf".toList, .obj [("master".toList, .str x)])] := by
  have hd : ["blosc".toList, "hdf".toList].Nodup := by decide +kernel
  have hp : ∀ n ∈ ["blosc".toList, "hdf".toList], '/' ∉ n ∧ isArray n = some false ∧ n ∉ reserved := by decide +kernel
  have hne : "blosc".toList ≠ "hdf".toList := by decide +kernel
  generalize "blosc".toList = b at hd hp hne ⊢
  generalize hh : "hdf".toList = h at hd hp hne ⊢
  refine ⟨fun y hy => hp y.1 (List.mem_map.2 ⟨y, hy, rfl⟩), hd, ?_⟩
  intro y hy hn
  rcases List.mem_cons.1 hy with rfl | hy
  · exact absurd hn (hh ▸ hne)
  · rw [List.mem_singleton] at hy
    subst hy
    refine ⟨_, rfl, ?_⟩
    intro w hw
    rw [member, if_pos rfl] at hw
    rw [← Option.some.inj hw]
    rfl

example : Fine writer.plugins := fine_two _ _

/-- Just started. -/
def fresh : Proc :=
  { ctrl := "tcp://a:5104".toList, bound := ["tcp://a:5104".toList], plugins := [("blosc".toList, .null), ("hdf".toList, .null)] }

example : (configure usual (report writer).1 fresh).2 = true := by decide +kernel
example : (configure usual (report writer).1 fresh).1.master = "data".toList := by decide +kernel
example : (configure usual (report writer).1 writer).2 = false := by decide +kernel
/-- A plugin that refuses: the file writer keeps its settings, and the compressor has those of the report. -/
def picky : Env := { usual with take := fun n _ v => if n = "hdf".toList then none else some v }
example : (configure picky (report writer).1 fresh).2 = false ∧ (configure picky (report writer).1 fresh).1.ready = writer.ready ∧
    (configure picky (report writer).1 fresh).1.shm = true := by decide +kernel
example : setFr usual (.obj [("fr_setup".toList, .obj [("fr_ready_cnxn".toList, .str "x".toList)])]) writer = (writer, true) :=
  C188_single _ _ _ (Or.inl (by rfl))

end Verif.ProcessorReport
