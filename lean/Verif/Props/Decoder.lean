import Verif.Model.Decoder
/-! Property C31: a receive buffer has one owner. -/
namespace Verif.Decoder

namespace Spec

/-- The decoder and its surroundings. -/
structure World where
  s : State
  out : List Nat := []                          -- buffers handed on and not yet returned
  stale : List Nat := []                        -- frames that timed out since the last packet
  rx : Nat → List (Nat × Nat) := fun _ => []    -- packets (number, payload) of a frame since it got its buffer
  log : List (Ready × List (Nat × Nat)) := []   -- all frames handed on, with their packets
  count : Nat := 0                              -- packets
  refused : Nat := 0                            -- frames refused a buffer
  last : Bool := false                          -- the last frame that asked for a buffer was refused
  began : Nat → Int := fun _ => 0               -- time of the first of these packets

inductive Ev
  | packet (p : Packet) (now : Int)
  | tick (now : Int)                            -- the buffer monitor
  | release (b : Nat)                           -- the processor returns a buffer it has
deriving DecidableEq, Repr

/-- Book-keeping for frames handed on. -/
def World.hand (w : World) (s : State) (rs : List Ready) (rx : Nat → List (Nat × Nat)) : World :=
  { w with s := s, out := w.out ++ rs.map (·.buffer), log := w.log ++ rs.map (fun r => (r, rx r.frame)),
           rx := fun f => if lookup s.map f = none then [] else rx f }

def rxAdd (rx : Nat → List (Nat × Nat)) (p : Packet) : Nat → List (Nat × Nat) :=
  fun f => if f = p.frame then (p.num, p.pay) :: rx f else rx f

/-- A packet begins a frame, and there is no buffer for it. -/
def World.refuses (w : World) (p : Packet) : Bool :=
  decide (p.frame ≠ w.s.seen) && decide (lookup w.s.map p.frame = none) && decide (w.s.empty = [])

/-- A packet begins a frame, and there is a buffer for it. -/
def World.accepts (w : World) (p : Packet) : Bool :=
  decide (p.frame ≠ w.s.seen) && decide (lookup w.s.map p.frame = none) && decide (w.s.empty ≠ [])

/-- `none`: undefined behaviour or an exception. -/
def step (c : Cfg) (w : World) : Ev → Option World
  | .packet p now => (packet c w.s p now).map (fun r =>
      { w.hand r.1 r.2 (rxAdd w.rx p) with
        stale := [], count := w.count + 1, refused := if w.refuses p then w.refused + 1 else w.refused,
        last := if w.refuses p then true else if w.accepts p then false else w.last,
        began := fun f => if f = p.frame ∧ w.rx f = [] then now else w.began f })
  | .tick now => (monitor c w.s now).map (fun r =>
      { w.hand r.1 r.2 w.rx with stale := w.stale ++ r.2.map (·.frame) })
  | .release b => if b ∈ w.out then some { w with s := push w.s b, out := w.out.erase b } else some w

/-- The buffers 0, ..., n-1 are precharged. -/
def init (c : Cfg) : World := { s := { empty := List.range c.buffers } }

def run (c : Cfg) (w : World) : List Ev → Option World
  | [] => some w
  | e :: es => (step c w e).bind (fun w => run c w es)

/-- A property of every packet of a run and the world it meets. -/
def Every (c : Cfg) (P : World → Packet → Prop) (w : World) : List Ev → Prop
  | [] => True
  | e :: es => (∀ p now, e = .packet p now → P w p) ∧ ∀ w', step c w e = some w' → Every c P w' es

/-- The same, as a computation. -/
def everyB (c : Cfg) (P : World → Packet → Bool) (w : World) : List Ev → Bool
  | [] => true
  | e :: es => (match e with | .packet p _ => P w p | _ => true) &&
      (match step c w e with | some w' => everyB c P w' es | none => true)

/-- The packet is not for a frame that timed out since the packet before it, and does not have the frame number
0xFFFFFFFF. -/
def Punctual (w : World) (p : Packet) : Prop := p.frame ∉ w.stale ∧ p.frame ≠ 4294967295

/-- All buffers, with their owners. -/
def World.owned (w : World) : List Nat := w.s.empty ++ w.s.map.map (·.2) ++ w.out

end Spec
open Spec

/-! ## Maps -/

theorem lookup_mem {m : List (Nat × Nat)} {f b : Nat} (h : lookup m f = some b) : (f, b) ∈ m := by
  induction m with
  | nil => cases h
  | cons x m ih =>
    obtain ⟨k, v⟩ := x
    simp only [lookup] at h
    split at h
    · rename_i e; cases h; subst e; simp
    · exact List.mem_cons_of_mem _ (ih h)

theorem lookup_none {m : List (Nat × Nat)} {f : Nat} : lookup m f = none ↔ f ∉ m.map (·.1) := by
  induction m with
  | nil => simp [lookup]
  | cons x m ih =>
    obtain ⟨k, v⟩ := x
    simp only [lookup, List.map_cons, List.mem_cons]
    split
    · rename_i e; simp [e]
    · rename_i e; rw [ih]; simp [Ne.symm e]

theorem mem_lookup {m : List (Nat × Nat)} {f b : Nat} (hn : (m.map (·.1)).Nodup) (h : (f, b) ∈ m) :
    lookup m f = some b := by
  induction m with
  | nil => cases h
  | cons x m ih =>
    obtain ⟨k, v⟩ := x
    rw [List.map_cons, List.nodup_cons] at hn
    simp only [lookup]
    rcases List.mem_cons.1 h with h | h
    · cases h; simp
    · rw [if_neg (by rintro rfl; exact hn.1 (List.mem_map_of_mem (f := (·.1)) h))]
      exact ih hn.2 h

theorem mem_erase {m : List (Nat × Nat)} {f : Nat} {x : Nat × Nat} : x ∈ erase m f ↔ x ∈ m ∧ x.1 ≠ f := by
  simp [erase, List.mem_filter]

theorem erase_keys {m : List (Nat × Nat)} (f : Nat) (h : (m.map (·.1)).Nodup) : ((erase m f).map (·.1)).Nodup :=
  h.sublist (List.Sublist.map _ List.filter_sublist)

theorem lookup_erase_ne {m : List (Nat × Nat)} {f g : Nat} (h : g ≠ f) : lookup (erase m f) g = lookup m g := by
  induction m with
  | nil => rfl
  | cons x m ih =>
    obtain ⟨k, v⟩ := x
    by_cases hk : k = f
    · subst hk
      have : erase ((k, v) :: m) k = erase m k := by simp [erase]
      rw [this, ih]
      simp only [lookup]
      rw [if_neg (Ne.symm h)]
    · have : erase ((k, v) :: m) f = (k, v) :: erase m f := by simp [erase, hk]
      rw [this]
      simp only [lookup, ih]

theorem lookup_erase_self (m : List (Nat × Nat)) (f : Nat) : lookup (erase m f) f = none := by
  rw [lookup_none]
  intro h
  obtain ⟨x, hx, e⟩ := List.mem_map.1 h
  exact (mem_erase.1 hx).2 e

theorem erase_notin {m : List (Nat × Nat)} {f : Nat} (h : f ∉ m.map (·.1)) : erase m f = m := by
  unfold erase
  rw [List.filter_eq_self]
  intro x hx
  simp only [decide_eq_true_eq]
  intro e
  exact h (List.mem_map.2 ⟨x, hx, e⟩)

theorem erase_perm {m : List (Nat × Nat)} {f b : Nat} (hn : (m.map (·.1)).Nodup) (h : (f, b) ∈ m) :
    (m.map (·.2)).Perm (b :: (erase m f).map (·.2)) := by
  induction m with
  | nil => cases h
  | cons x m ih =>
    obtain ⟨k, v⟩ := x
    rw [List.map_cons, List.nodup_cons] at hn
    rcases List.mem_cons.1 h with h | h
    · cases h
      have : erase ((f, b) :: m) f = m := by
        have h1 : erase ((f, b) :: m) f = erase m f := by simp [erase]
        rw [h1, erase_notin hn.1]
      rw [this]
      exact List.Perm.refl _
    · have hk : k ≠ f := by rintro rfl; exact hn.1 (List.mem_map_of_mem (f := (·.1)) h)
      have : erase ((k, v) :: m) f = (k, v) :: erase m f := by simp [erase, hk]
      rw [this]
      exact ((ih hn.2 h).cons v).trans (List.Perm.swap b v _)

/-! ## Ownership -/

structure Own (c : Cfg) (s : State) (out stale : List Nat) : Prop where
  perm : (s.empty ++ s.map.map (·.2) ++ out).Perm (List.range c.buffers)
  keys : (s.map.map (·.1)).Nodup
  real : ∀ x ∈ s.map, x.1 ≠ noFrame
  mapped : ∀ b, lookup s.map s.seen = some b → s.cur = some (.shared b) ∧ s.bufId = b
  unmapped : lookup s.map s.seen = none → s.seen = noFrame ∨ s.cur = some .scratch ∨ s.seen ∈ stale
  scratch : s.cur = some .scratch → s.dropping = true

theorem own_bufs {c : Cfg} {s : State} {out stale : List Nat} (h : Own c s out stale) (s' : State)
    (h1 : s'.empty = s.empty) (h2 : s'.map = s.map) (h3 : s'.seen = s.seen) (h4 : s'.cur = s.cur)
    (h5 : s'.bufId = s.bufId) (h6 : s'.dropping = s.dropping) : Own c s' out stale :=
  ⟨by rw [h1, h2]; exact h.perm, by rw [h2]; exact h.keys, by rw [h2]; exact h.real,
    by rw [h2, h3, h4, h5]; exact h.mapped, by rw [h2, h3, h4]; exact h.unmapped, by rw [h4, h6]; exact h.scratch⟩

theorem select_own (c : Cfg) (s s' : State) (f : Nat) (now : Int) (out stale : List Nat) (h : Own c s out stale)
    (hf : f ∉ stale) (hr : f ≠ noFrame) (hs : select c s f now = some s') :
    Own c s' out [] ∧ s'.seen = f := by
  unfold select at hs
  by_cases he : f = s.seen
  · rw [if_pos he] at hs
    cases hs
    refine ⟨⟨h.perm, h.keys, h.real, h.mapped, fun hl => ?_, h.scratch⟩, he.symm⟩
    rcases h.unmapped hl with h1 | h1 | h1
    · exact absurd (he.trans h1) hr
    · exact Or.inr (Or.inl h1)
    · exact absurd (he ▸ h1) hf
  · rw [if_neg he] at hs
    cases hl : lookup s.map f with
    | some b =>
      rw [hl] at hs
      simp only at hs
      split at hs
      · cases hs
        refine ⟨⟨h.perm, h.keys, h.real, ?_, ?_, ?_⟩, rfl⟩
        · intro b' hb'
          simp only at hb'
          rw [hl] at hb'
          cases hb'
          exact ⟨rfl, rfl⟩
        · intro hn
          simp only at hn
          rw [hl] at hn
          cases hn
        · intro hc; cases hc
      · cases hs
    | none =>
      rw [hl] at hs
      simp only at hs
      cases hq : s.empty with
      | nil =>
        rw [hq] at hs
        simp only at hs
        cases hs
        refine ⟨⟨h.perm, h.keys, h.real, ?_, fun _ => Or.inr (Or.inl rfl), fun _ => rfl⟩, rfl⟩
        intro b hb
        have : lookup s.map f = some b := hb
        rw [hl] at this
        cases this
      | cons b q =>
        rw [hq] at hs
        simp only at hs
        split at hs
        · cases hs
          have hself : lookup ((f, b) :: s.map) f = some b := by simp [lookup]
          refine ⟨⟨?_, ?_, ?_, ?_, ?_, ?_⟩, rfl⟩
          · have hp := h.perm
            rw [hq] at hp
            refine List.Perm.trans ?_ hp
            refine List.Perm.append_right _ ?_
            show (q ++ b :: s.map.map (·.2)).Perm (b :: (q ++ s.map.map (·.2)))
            exact List.perm_middle
          · exact List.nodup_cons.2 ⟨lookup_none.1 hl, h.keys⟩
          · intro x hx
            rcases List.mem_cons.1 hx with rfl | hx
            · exact hr
            · exact h.real x hx
          · intro b' hb'
            have : lookup ((f, b) :: s.map) f = some b' := hb'
            rw [hself] at this
            cases this
            exact ⟨rfl, rfl⟩
          · intro hn
            have : lookup ((f, b) :: s.map) f = none := hn
            rw [hself] at this
            cases this
          · intro hc; cases hc
        · cases hs

/-- `store` changes only the buffer and the counters. -/
theorem store_frame (c : Cfg) (s s' : State) (p : Packet) (h : store c s p = some s') :
    s'.empty = s.empty ∧ s'.map = s.map ∧ s'.seen = s.seen ∧ s'.cur = s.cur ∧ s'.bufId = s.bufId ∧
    s'.dropping = s.dropping ∧ s'.lost = s.lost ∧ s'.framesDropped = s.framesDropped ∧
    s'.framesTimedout = s.framesTimedout := by
  unfold store at h
  cases hc : s.cur with
  | none => rw [hc] at h; cases h
  | some l =>
    rw [hc] at h
    simp only at h
    split at h
    · cases h
    · cases h
      unfold countPacket
      split <;> exact ⟨rfl, rfl, rfl, hc, rfl, rfl, rfl, rfl, rfl⟩

theorem finish_own (c : Cfg) (s s' : State) (rs : List Ready) (out : List Nat) (h : Own c s out [])
    (hr : s.seen ≠ noFrame) (hs : finish c s = some (s', rs)) : Own c s' (out ++ rs.map (·.buffer)) [] := by
  unfold finish at hs
  cases hc : s.cur with
  | none => rw [hc] at hs; cases hs
  | some l =>
    rw [hc] at hs
    simp only at hs
    split at hs
    · split at hs
      · cases hs
        simp only [List.map_nil, List.append_nil]
        exact own_bufs h _ rfl rfl rfl rfl rfl rfl
      · rename_i hd
        cases hs
        have hl : ∃ b, lookup s.map s.seen = some b := by
          cases hl : lookup s.map s.seen with
          | some b => exact ⟨b, rfl⟩
          | none =>
            rcases h.unmapped hl with h1 | h1 | h1
            · exact absurd h1 hr
            · exact absurd (h.scratch h1) hd
            · cases h1
        obtain ⟨b, hb⟩ := hl
        have hbid := (h.mapped b hb).2
        refine ⟨?_, erase_keys _ h.keys, fun x hx => h.real x (mem_erase.1 hx).1, ?_, fun _ => Or.inl rfl, h.scratch⟩
        · show (s.empty ++ (erase s.map s.seen).map (·.2) ++ (out ++ [s.bufId])).Perm _
          rw [hbid]
          refine List.Perm.trans ?_ h.perm
          have := erase_perm h.keys (lookup_mem hb)
          have h2 := (this.append_left s.empty).append_right out
          refine List.Perm.trans ?_ h2.symm
          rw [← List.append_assoc]
          refine (List.perm_append_singleton b _).trans ?_
          rw [List.append_assoc, List.append_assoc]
          exact (List.perm_middle (l₁ := s.empty)).symm
        · intro b' hb'
          exfalso
          have hm := lookup_mem (m := erase s.map s.seen) hb'
          exact h.real _ (mem_erase.1 hm).1 rfl
    · cases hs
      simp only [List.map_nil, List.append_nil]
      exact own_bufs h _ rfl rfl rfl rfl rfl rfl

theorem packet_own (c : Cfg) (s s' : State) (p : Packet) (now : Int) (rs : List Ready) (out stale : List Nat)
    (h : Own c s out stale) (hf : p.frame ∉ stale) (hr : p.frame ≠ noFrame)
    (hs : packet c s p now = some (s', rs)) : Own c s' (out ++ rs.map (·.buffer)) [] := by
  unfold packet at hs
  obtain ⟨s1, h1, hs⟩ := Option.bind_eq_some_iff.1 hs
  obtain ⟨s2, h2, hs⟩ := Option.bind_eq_some_iff.1 hs
  obtain ⟨ho, hseen⟩ := select_own c s s1 p.frame now out stale h hf hr h1
  obtain ⟨a1, a2, a3, a4, a5, a6, -⟩ := store_frame c s1 s2 p h2
  exact finish_own c s2 s' rs out (own_bufs ho s2 a1 a2 a3 a4 a5 a6) (by rw [a3, hseen]; exact hr) hs

theorem timeOut_own (c : Cfg) (s : State) (f b : Nat) (out stale : List Nat) (h : Own c s out stale)
    (hm : (f, b) ∈ s.map) : Own c (timeOut c s f b).1 (out ++ [b]) (stale ++ [f]) := by
  refine ⟨?_, erase_keys _ h.keys, fun x hx => h.real x (mem_erase.1 hx).1, ?_, ?_, h.scratch⟩
  · show (s.empty ++ (erase s.map f).map (·.2) ++ (out ++ [b])).Perm _
    refine List.Perm.trans ?_ h.perm
    have := erase_perm h.keys hm
    have h2 := (this.append_left s.empty).append_right out
    refine List.Perm.trans ?_ h2.symm
    rw [← List.append_assoc]
    refine (List.perm_append_singleton b _).trans ?_
    rw [List.append_assoc, List.append_assoc]
    exact (List.perm_middle (l₁ := s.empty)).symm
  · intro b' hb'
    have hb' : lookup (erase s.map f) s.seen = some b' := hb'
    by_cases hfs : s.seen = f
    · rw [hfs, lookup_erase_self] at hb'; cases hb'
    · rw [lookup_erase_ne hfs] at hb'; exact h.mapped b' hb'
  · intro hn
    have hn : lookup (erase s.map f) s.seen = none := hn
    show s.seen = noFrame ∨ s.cur = some .scratch ∨ s.seen ∈ stale ++ [f]
    by_cases hfs : s.seen = f
    · exact Or.inr (Or.inr (by rw [hfs]; simp))
    · rw [lookup_erase_ne hfs] at hn
      rcases h.unmapped hn with h1 | h1 | h1
      · exact Or.inl h1
      · exact Or.inr (Or.inl h1)
      · exact Or.inr (Or.inr (List.mem_append_left _ h1))

theorem monitorLoop_own (c : Cfg) (now : Int) (m : List (Nat × Nat)) : ∀ (s s' : State) (rs : List Ready)
    (out stale : List Nat), Own c s out stale → (∀ x ∈ m, x ∈ s.map) → (m.map (·.1)).Nodup →
    monitorLoop c now m s = some (s', rs) →
    Own c s' (out ++ rs.map (·.buffer)) (stale ++ rs.map (·.frame)) := by
  induction m with
  | nil => intro s s' rs out stale h _ _ hs; cases hs; simpa using h
  | cons x m ih =>
    intro s s' rs out stale h hm hn hs
    obtain ⟨f, b⟩ := x
    rw [List.map_cons, List.nodup_cons] at hn
    simp only [monitorLoop] at hs
    split at hs
    · cases he : elapsedMs (s.bufs (.shared b)).start now with
      | none => rw [he] at hs; cases hs
      | some ms =>
        rw [he] at hs
        simp only at hs
        split at hs
        · obtain ⟨r, hr, e⟩ := Option.map_eq_some_iff.1 hs
          cases e
          have := ih (timeOut c s f b).1 r.1 r.2 (out ++ [b]) (stale ++ [f])
            (timeOut_own c s f b out stale h (hm _ (by simp)))
            (fun y hy => mem_erase.2 ⟨hm y (List.mem_cons_of_mem _ hy), fun e => hn.1 (List.mem_map.2 ⟨y, hy, e⟩)⟩)
            hn.2 hr
          simpa [timeOut] using this
        · exact ih s s' rs out stale h (fun y hy => hm y (List.mem_cons_of_mem _ hy)) hn.2 hs
    · cases hs

theorem push_own (c : Cfg) (s : State) (b : Nat) (out stale : List Nat) (h : Own c s out stale) (hb : b ∈ out) :
    Own c (push s b) (out.erase b) stale := by
  refine ⟨?_, h.keys, h.real, h.mapped, h.unmapped, h.scratch⟩
  show (s.empty ++ [b] ++ s.map.map (·.2) ++ out.erase b).Perm _
  refine List.Perm.trans ?_ h.perm
  have h1 : out.Perm (b :: out.erase b) := List.perm_cons_erase hb
  refine List.Perm.trans ?_ (h1.append_left _).symm
  simp only [List.append_assoc, List.singleton_append]
  refine List.Perm.append_left _ ?_
  exact (List.perm_middle (l₁ := s.map.map (·.2))).symm

theorem step_own (c : Cfg) (w w' : World) (e : Ev) (h : Own c w.s w.out w.stale)
    (hp : ∀ p now, e = .packet p now → Punctual w p) (hs : step c w e = some w') :
    Own c w'.s w'.out w'.stale := by
  cases e with
  | packet p now =>
    obtain ⟨h1, h2⟩ := hp p now rfl
    obtain ⟨r, hr, e⟩ := Option.map_eq_some_iff.1 hs
    cases e
    exact packet_own c w.s r.1 p now r.2 w.out w.stale h h1 h2 hr
  | tick now =>
    obtain ⟨r, hr, e⟩ := Option.map_eq_some_iff.1 hs
    cases e
    exact monitorLoop_own c now w.s.map w.s r.1 r.2 w.out w.stale h (fun _ hx => hx) h.keys hr
  | release b =>
    simp only [step] at hs
    split at hs
    · rename_i hb; cases hs; exact push_own c w.s b w.out w.stale h hb
    · cases hs; exact h

theorem init_own (c : Cfg) : Own c (init c).s (init c).out (init c).stale := by
  refine ⟨?_, List.nodup_nil, fun x hx => (by cases hx), fun b hb => (by cases hb), fun _ => Or.inl rfl,
    fun hc => (by cases hc)⟩
  show (List.range c.buffers ++ [] ++ []).Perm _
  rw [List.append_nil, List.append_nil]

/-- Induction over runs with a condition on the packets. -/
theorem run_induct (c : Cfg) (P : World → Packet → Prop) (I : World → Prop)
    (hstep : ∀ w w' e, I w → (∀ p now, e = .packet p now → P w p) → step c w e = some w' → I w') (evs : List Ev) :
    ∀ w w', I w → Every c P w evs → run c w evs = some w' → I w' := by
  induction evs with
  | nil => intro w w' h _ hr; cases hr; exact h
  | cons e evs ih =>
    intro w w' h hp hr
    obtain ⟨t, ht, hr⟩ := Option.bind_eq_some_iff.1 hr
    exact ih t w' (hstep w t e h hp.1 ht) (hp.2 t ht) hr

theorem every_mono (c : Cfg) (P Q : World → Packet → Prop) (hpq : ∀ w p, P w p → Q w p) (evs : List Ev) :
    ∀ w, Every c P w evs → Every c Q w evs := by
  induction evs with
  | nil => intro w _; trivial
  | cons e evs ih =>
    intro w h
    exact ⟨fun p now he => hpq w p (h.1 p now he), fun w' hw' => ih w' (h.2 w' hw')⟩

theorem every_true (c : Cfg) (evs : List Ev) : ∀ w, Every c (fun _ _ => True) w evs := by
  induction evs with
  | nil => intro w; trivial
  | cons e evs ih => intro w; exact ⟨fun _ _ _ => trivial, fun w' _ => ih w'⟩

theorem every_of_everyB (c : Cfg) (P : World → Packet → Prop) (B : World → Packet → Bool)
    (hB : ∀ w p, B w p = true → P w p) (evs : List Ev) : ∀ w, everyB c B w evs = true → Every c P w evs := by
  induction evs with
  | nil => intro w _; trivial
  | cons e evs ih =>
    intro w h
    simp only [everyB, Bool.and_eq_true] at h
    refine ⟨fun p now he => ?_, fun w' hw' => ?_⟩
    · subst he; exact hB w p h.1
    · rw [hw'] at h; exact ih w' h.2

/-- C31, full statement: in every history every buffer has exactly one owner. -/
def C31_statement : Prop :=
  ∀ (c : Cfg) (evs : List Ev) (w : World), c.accepted = true → run c (init c) evs = some w →
    w.owned.Perm (List.range c.buffers)

/-- C31, proved part: if no packet arrives for a frame that has just timed out before any other frame's packet, nor
with the frame number 0xFFFFFFFF. Missing: these (`C31_violated`, `C31_violated_number`), and reconfiguration
(`C31_violated_reconfigure`). -/
theorem C31_partial (c : Cfg) (evs : List Ev) (w : World) (hp : Every c Punctual (init c) evs)
    (h : run c (init c) evs = some w) : w.owned.Perm (List.range c.buffers) :=
  (run_induct c Punctual (fun w => Own c w.s w.out w.stale) (fun w w' e h hp hs => step_own c w w' e h hp hs) evs
    (init c) w (init_own c) hp h).perm

/-- In particular every buffer handed on is returned to the queue once, and no two frames share one. -/
theorem C31_distinct (c : Cfg) (evs : List Ev) (w : World) (hp : Every c Punctual (init c) evs)
    (h : run c (init c) evs = some w) : w.owned.Nodup :=
  (C31_partial c evs w hp h).nodup_iff.2 List.nodup_range

/-- Two packets per frame, one buffer, 1 s. -/
def small : Cfg := { packets := 2, size := 10, buffers := 1, timeout := 1000 }

/-- The first packet of frame 0, its timeout, and its second packet, late. -/
def late : List Ev := [.packet ⟨0, 0, 7⟩ 0, .tick 2000000000, .packet ⟨0, 1, 8⟩ 2000000001]

/-- C31 is false of the code: the decoder still writes a late packet to the buffer already handed on, counts it, and
hands on the buffer a second time. -/
theorem C31_violated : ¬ C31_statement := by
  intro h
  have h1 : (run small (init small) late).map World.owned = some [0, 0] := by decide +kernel
  cases hr : run small (init small) late with
  | none => rw [hr] at h1; cases h1
  | some w =>
    rw [hr] at h1
    have h2 : w.owned = [0, 0] := Option.some.inj h1
    have := (h small late w (by decide) hr).length_eq
    rw [h2] at this
    exact absurd this (by decide)

/-- After the processor has returned it twice, two frames are received into one buffer. -/
theorem C31_shared : (run small (init small) (late ++ [.release 0, .release 0, .packet ⟨1, 0, 1⟩ 3000000000,
    .packet ⟨2, 0, 2⟩ 3000000001])).map (fun w => w.s.map) = some [(2, 0), (1, 0)] := by
  decide +kernel

/-- The late packet is written while the buffer belongs to the processor. -/
theorem C31_written_after_hand_on :
    (run small (init small) [.packet ⟨0, 0, 7⟩ 0, .tick 2000000000]).map (fun w => (w.out, (w.s.bufs (.shared 0)).pay 1)) =
      some ([0], 0) ∧
    (run small (init small) late).map (fun w => (w.out, (w.s.bufs (.shared 0)).pay 1)) = some ([0, 0], 8) := by
  decide +kernel

/-- One packet per frame, one buffer. -/
def single : Cfg := { packets := 1, size := 10, buffers := 1, timeout := 1000 }

/-- A packet with frame number 0xFFFFFFFF as the very first one uses a null pointer; after a frame it is written to
the buffer of that frame, which has been handed on. -/
theorem C31_violated_number :
    (run single (init single) [.packet ⟨4294967295, 0, 1⟩ 0]).isNone = true ∧
    (run small (init small) [.packet ⟨0, 0, 7⟩ 0, .packet ⟨0, 1, 8⟩ 1, .packet ⟨4294967295, 0, 9⟩ 2]).map
      (fun w => (w.out, (w.s.bufs (.shared 0)).pay 0)) = some ([0], 9) := by
  decide +kernel

/-- Reconfiguring precharges all buffers, also those the processor still has and will return. -/
theorem C31_violated_reconfigure :
    (run single (init single) [.packet ⟨0, 0, 7⟩ 0]).map (fun w => (({ w with s := recharge w.s 1 } : World).owned)) =
      some [0, 0] := by
  decide +kernel

/-- After a reconfiguration the next packet of the same frame uses an address that is no longer mapped. -/
theorem C31_reconfigure_dangling :
    ((run small (init small) [.packet ⟨0, 0, 7⟩ 0]).bind (fun w => packet small (recharge w.s 1) ⟨0, 1, 8⟩ 1)).isNone = true := by
  decide +kernel

/-- Frames interleaved, dropped, completed, timed out, returned. -/
def busy : List Ev :=
  [.packet ⟨0, 0, 1⟩ 0, .packet ⟨1, 0, 2⟩ 1, .packet ⟨2, 0, 3⟩ 2, .packet ⟨0, 1, 4⟩ 3, .packet ⟨3, 1, 4⟩ 3, .tick 2000000000,
      .release 0, .packet ⟨4, 1, 5⟩ 2000000001, .packet ⟨4, 0, 6⟩ 2000000002]

/-- Non-vacuity: the hypotheses hold of `busy`. -/
example : Every { small with buffers := 2 } Punctual (init { small with buffers := 2 }) busy :=
  every_of_everyB _ Punctual (fun w p => decide (p.frame ∉ w.stale) && decide (p.frame ≠ 4294967295))
    (fun w p h => by rw [Bool.and_eq_true, decide_eq_true_eq, decide_eq_true_eq] at h; exact h) _ _ (by decide +kernel)

example : (run { small with buffers := 2 } (init { small with buffers := 2 }) busy).map
    (fun w => (w.owned, w.s.map, w.log.length, w.refused)) = some ([1, 0], [], 3, 2) := by
  decide +kernel

end Verif.Decoder
