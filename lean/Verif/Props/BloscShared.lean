import Verif.Model.BloscShared
/-! C133: a frame is compressed as its plugin says. -/
namespace Verif.BloscShared
open Verif.Blosc (Settings Msg Compressed clampLevel clampShuffle clampThreads clampCompressor)

namespace Spec

/-- What the status of a plugin reports. -/
def reported (s : St) (i : Nat) : Option Settings := (s.plug i).map (·.latched)

/-- Compressed with these settings. -/
def With (c : Compressed) (s : Settings) : Prop :=
  c.level = s.level ∧ c.shuffle = s.shuffle ∧ c.compressor = s.compressor ∧ c.threads = s.threads

/-- The operation is about this plugin, which is not loaded again. -/
def Of (i : Nat) : Op → Prop
  | .load _ => False
  | .config j _ => j = i
  | .frame j _ => j = i

/-- The operation leaves the settings of the library at the defaults of the plugins. -/
def Default : Op → Prop
  | .config _ m => (m.compressor = none ∨ m.compressor = some (some 1)) ∧ (m.threads = none ∨ m.threads = some (some 1))
  | _ => True

end Spec
open Spec

/-- C133, full statement: with every compressor compiled into the library, a frame is compressed with the settings its plugin
reports. -/
def C133_statement : Prop :=
  ∀ (l : Lib) (ops : List Op) (i : Nat) (id : String) (c : Compressed) (s : Settings),
    (step (fun _ => true) (run (fun _ => true) (init l) ops) (.frame i id)).2 = some c →
    reported (step (fun _ => true) (run (fun _ => true) (init l) ops) (.frame i id)).1 i = some s → With c s

/-- C133 is false of the code: loading a second plugin sets the compressor and the threads of the first one. -/
theorem C133_violated : ¬ C133_statement := by
  intro h
  have := h {} [.load 0, .config 0 { compressor := some (some 5), threads := some (some 4) }, .frame 0 "a", .load 1] 0 "a"
    ⟨1, 2, 1, 1⟩ ⟨1, 2, 4, 5⟩ (by decide) (by decide)
  revert this
  unfold With
  decide

/-- The compressor changes within an acquisition because another plugin is configured or begins an acquisition. -/
theorem C133_mixed :
    (step (fun _ => true) (run (fun _ => true) (init {}) [.load 0, .load 1, .config 0 { compressor := some (some 5) }]) (.frame 0 "a")).2
      = some ⟨1, 2, 5, 1⟩ ∧
    (step (fun _ => true) (run (fun _ => true) (init {}) [.load 0, .load 1, .config 0 { compressor := some (some 5) }, .frame 0 "a",
      .frame 1 "b"]) (.frame 0 "a")).2 = some ⟨1, 2, 1, 1⟩ := by
  decide

/-! ## What holds -/

/-- The library has the settings of the plugin. -/
def Agrees (p : Plug) (l : Lib) : Prop := l.compressor = p.latched.compressor ∧ l.threads = p.latched.threads

theorem update_agrees (p : Plug) (l : Lib) : Agrees (update (fun _ => true) p l).1.1 (update (fun _ => true) p l).1.2 := ⟨rfl, rfl⟩

theorem item_agrees {α} (v : Option (Option α)) (f : α → Settings → Settings) (x : (Plug × Lib) × Bool)
    (h : Agrees x.1.1 x.1.2) : Agrees (item (fun _ => true) v f x).1.1 (item (fun _ => true) v f x).1.2 := by
  obtain ⟨⟨p, l⟩, b⟩ := x
  cases b with
  | false => exact h
  | true =>
    unfold item
    match v with
    | none => exact h
    | some none => exact h
    | some (some a) =>
      dsimp only
      split
      · exact update_agrees _ _
      · exact h

theorem configure_agrees (p : Plug) (l : Lib) (m : Msg) (h : Agrees p l) :
    Agrees (configure (fun _ => true) p l m).1.1 (configure (fun _ => true) p l m).1.2 :=
  item_agrees _ _ _ (item_agrees _ _ _ (item_agrees _ _ _ (item_agrees _ _ _ h)))

theorem enter_agrees (p : Plug) (l : Lib) (id : String) (h : Agrees p l) :
    Agrees (enter (fun _ => true) p l id).1.1 (enter (fun _ => true) p l id).1.2 := by
  unfold enter
  split
  · exact update_agrees _ _
  · exact h

/-- Plugin `i` is there and agrees with the library. -/
def AgreesAt (i : Nat) (s : St) : Prop := ∃ p, s.plug i = some p ∧ Agrees p s.lib

theorem set_self (s : St) (i : Nat) (p : Plug) (l : Lib) : (s.set i p l).plug i = some p := by simp [St.set]

theorem step_agrees (i : Nat) (o : Op) (ho : Of i o) (s : St) (h : AgreesAt i s) : AgreesAt i (step (fun _ => true) s o).1 := by
  obtain ⟨p, hp, ha⟩ := h
  cases o with
  | load j => exact absurd ho id
  | config j m =>
    cases (ho : j = i)
    simp only [step, hp]
    exact ⟨_, set_self _ _ _ _, configure_agrees p _ m ha⟩
  | frame j id =>
    cases (ho : j = i)
    simp only [step, hp]
    exact ⟨_, set_self _ _ _ _, enter_agrees p _ id ha⟩

theorem run_agrees (i : Nat) (ops : List Op) (ho : ∀ o ∈ ops, Of i o) : ∀ s, AgreesAt i s → AgreesAt i (run (fun _ => true) s ops) := by
  induction ops with
  | nil => intro s h; exact h
  | cons o ops ih =>
    intro s h
    exact ih (fun x hx => ho x (List.mem_cons_of_mem _ hx)) _ (step_agrees i o (ho o List.mem_cons_self) s h)

/-- A frame of a plugin that agrees with the library is compressed as the plugin says. -/
theorem frame_with (i : Nat) (s : St) (h : AgreesAt i s) (id : String) (c : Compressed) (t : Settings)
    (hc : (step (fun _ => true) s (.frame i id)).2 = some c) (ht : reported (step (fun _ => true) s (.frame i id)).1 i = some t) :
    With c t := by
  obtain ⟨p, hp, ha⟩ := h
  have he := enter_agrees p s.lib id ha
  simp only [step, hp] at hc ht
  split at hc
  · unfold reported at ht
    rw [set_self] at ht
    cases ht
    cases hc
    exact ⟨rfl, rfl, he.1, he.2⟩
  · cases hc

/-- What holds: from the time a plugin is loaded, as long as it is the only one that is used, its frames are compressed with
the settings it reports, whatever was done with other plugins before. -/
theorem C133_partial (s : St) (i : Nat) (ops : List Op) (ho : ∀ o ∈ ops, Of i o) (id : String) (c : Compressed) (t : Settings)
    (hc : (step (fun _ => true) (run (fun _ => true) s (.load i :: ops)) (.frame i id)).2 = some c)
    (ht : reported (step (fun _ => true) (run (fun _ => true) s (.load i :: ops)) (.frame i id)).1 i = some t) : With c t :=
  frame_with i _ (run_agrees i ops ho _ ⟨{}, set_self _ _ _ _, rfl, rfl⟩) id c t hc ht

/-- The same from the first frame of an acquisition on, if other plugins are left alone during it. -/
theorem C133_acquisition (s : St) (i : Nat) (p : Plug) (hp : s.plug i = some p) (new : String) (hn : new ≠ p.acq) (ops : List Op)
    (ho : ∀ o ∈ ops, Of i o) (id : String) (c : Compressed) (t : Settings)
    (hc : (step (fun _ => true) (run (fun _ => true) s (.frame i new :: ops)) (.frame i id)).2 = some c)
    (ht : reported (step (fun _ => true) (run (fun _ => true) s (.frame i new :: ops)) (.frame i id)).1 i = some t) : With c t := by
  refine frame_with i _ (run_agrees i ops ho _ ?_) id c t hc ht
  simp only [step, hp]
  refine ⟨_, set_self _ _ _ _, ?_⟩
  show Agrees (enter (fun _ => true) p s.lib new).1.1 (enter (fun _ => true) p s.lib new).1.2
  unfold enter
  rw [if_pos hn]
  exact update_agrees _ _

/-- All plugins and the library have the default compressor and number of threads. -/
def AllDefault (s : St) : Prop :=
  (s.lib = {} ∨ ∀ i, s.plug i = none) ∧
  ∀ i p, s.plug i = some p → p.commanded.compressor = 1 ∧ p.commanded.threads = 1 ∧ p.latched.compressor = 1 ∧ p.latched.threads = 1

def PlugDefault (x : Plug × Lib) : Prop :=
  x.2 = {} ∧ x.1.commanded.compressor = 1 ∧ x.1.commanded.threads = 1 ∧ x.1.latched.compressor = 1 ∧ x.1.latched.threads = 1

theorem update_default (p : Plug) (l : Lib) (h : p.commanded.compressor = 1 ∧ p.commanded.threads = 1) :
    PlugDefault (update (fun _ => true) p l).1 := by
  unfold update
  rw [if_pos rfl]
  exact ⟨by simp [h.1, h.2], h.1, h.2, h.1, h.2⟩

theorem item_default {α} (v : Option (Option α)) (f : α → Settings → Settings)
    (hf : ∀ a c, v = some (some a) → c.compressor = 1 ∧ c.threads = 1 → (f a c).compressor = 1 ∧ (f a c).threads = 1)
    (x : (Plug × Lib) × Bool) (h : PlugDefault x.1) : PlugDefault (item (fun _ => true) v f x).1 := by
  obtain ⟨⟨p, l⟩, b⟩ := x
  cases b with
  | false => exact h
  | true =>
    unfold item
    match v, hf with
    | none, _ => exact h
    | some none, _ => exact h
    | some (some a), hf =>
      have hc := hf a p.commanded rfl ⟨h.2.1, h.2.2.1⟩
      dsimp only
      split
      · exact update_default _ _ hc
      · exact ⟨h.1, hc.1, hc.2, h.2.2.2⟩

theorem configure_default (p : Plug) (l : Lib) (m : Msg) (hm : Default (.config 0 m)) (h : PlugDefault (p, l)) :
    PlugDefault (configure (fun _ => true) p l m).1 := by
  refine item_default _ _ ?_ _ (item_default _ _ ?_ _ (item_default _ _ ?_ _ (item_default _ _ ?_ _ h)))
  · intro a c ha hc
    rcases hm.1 with e | e
    · rw [e] at ha; cases ha
    · rw [e] at ha; cases ha; exact ⟨(by decide : clampCompressor 1 = 1), hc.2⟩
  · intro a c ha hc
    rcases hm.2 with e | e
    · rw [e] at ha; cases ha
    · rw [e] at ha; cases ha; exact ⟨hc.1, (by decide : clampThreads 1 = 1)⟩
  · intro a c _ hc; exact hc
  · intro a c _ hc; exact hc

theorem set_default (s : St) (i : Nat) (x : Plug × Lib) (hs : AllDefault s) (hx : PlugDefault x) : AllDefault (s.set i x.1 x.2) := by
  refine ⟨Or.inl hx.1, ?_⟩
  intro j q hq
  simp only [St.set] at hq
  split at hq
  · cases hq; exact hx.2
  · exact hs.2 j q hq

theorem plug_default (s : St) (i : Nat) (p : Plug) (hp : s.plug i = some p) (h : AllDefault s) : PlugDefault (p, s.lib) := by
  refine ⟨?_, h.2 i p hp⟩
  rcases h.1 with e | e
  · exact e
  · rw [e i] at hp; cases hp

theorem step_default (o : Op) (ho : Default o) (s : St) (h : AllDefault s) : AllDefault (step (fun _ => true) s o).1 := by
  cases o with
  | load i => exact set_default s i (construct (fun _ => true) s.lib) h ⟨rfl, rfl, rfl, rfl, rfl⟩
  | config i m =>
    simp only [step]
    cases hp : s.plug i with
    | none => exact h
    | some p => exact set_default s i _ h (configure_default p s.lib m ho (plug_default s i p hp h))
  | frame i id =>
    simp only [step]
    cases hp : s.plug i with
    | none => exact h
    | some p =>
      have hd := plug_default s i p hp h
      refine set_default s i (enter (fun _ => true) p s.lib id).1 h ?_
      unfold enter
      split
      · exact update_default _ _ ⟨hd.2.1, hd.2.2.1⟩
      · exact hd

theorem run_default (ops : List Op) (ho : ∀ o ∈ ops, Default o) : ∀ s, AllDefault s → AllDefault (run (fun _ => true) s ops) := by
  induction ops with
  | nil => intro s h; exact h
  | cons o ops ih =>
    intro s h
    exact ih (fun x hx => ho x (List.mem_cons_of_mem _ hx)) _ (step_default o (ho o List.mem_cons_self) s h)

/-- Several plugins: the same holds if none of them is ever given another compressor or number of threads than the default. -/
theorem C133_default (l : Lib) (ops : List Op) (ho : ∀ o ∈ ops, Default o) (i : Nat) (id : String) (c : Compressed) (t : Settings)
    (hc : (step (fun _ => true) (run (fun _ => true) (init l) ops) (.frame i id)).2 = some c)
    (ht : reported (step (fun _ => true) (run (fun _ => true) (init l) ops) (.frame i id)).1 i = some t) : With c t := by
  have hd := run_default ops ho (init l) ⟨Or.inr fun _ => rfl, fun i p h => by cases h⟩
  generalize run (fun _ => true) (init l) ops = s at hc ht hd
  cases hp : s.plug i with
  | none => simp only [step, hp] at hc; cases hc
  | some p =>
    obtain ⟨h1, _, _, h2, h3⟩ := plug_default s i p hp hd
    have h1 : s.lib = {} := h1
    exact frame_with i s ⟨p, hp, by rw [h1]; exact h2.symm, by rw [h1]; exact h3.symm⟩ id c t hc ht

/-- Non-vacuity: another plugin was used before; this one is loaded, configured, and used. -/
example : (step (fun _ => true) (run (fun _ => true) (run (fun _ => true) (init {}) [.load 1, .config 1 { compressor := some (some 5) }])
    (.load 0 :: [.config 0 { compressor := some (some 3), level := some (some 7) }, .frame 0 "a", .config 0 { level := some (some 2) }]))
    (.frame 0 "a")).2 = some ⟨7, 2, 3, 1⟩ := by decide
example : (step (fun _ => true) (run (fun _ => true) (init {}) [.load 0, .load 1, .config 1 { level := some (some 9), threads := some (some 1) },
    .frame 1 "b"]) (.frame 0 "a")).2 = some ⟨1, 2, 1, 1⟩ := by decide

end Verif.BloscShared
