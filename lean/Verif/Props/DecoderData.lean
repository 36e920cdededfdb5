import Verif.Props.Decoder
/-! Properties C32, C33, C34, C35 and C61: bounds, completeness, counters and timeouts of the frame decoder. -/
namespace Verif.Decoder

namespace Spec

/-- The packet belongs to a frame and has not arrived before. -/
def Fresh (c : Cfg) (w : World) (p : Packet) : Prop :=
  p.num < c.packets ∧ p.num ∉ (w.rx p.frame).map (·.1)

/-- Not late, and not a duplicate. -/
def Regular (c : Cfg) (w : World) (p : Packet) : Prop := Punctual w p ∧ Fresh c w p

/-- The packets of a frame that did not arrive. -/
def missing (c : Cfg) (l : List (Nat × Nat)) : Nat :=
  ((List.range c.packets).filter (fun k => decide (k ∉ l.map (·.1)))).length

def sum : List Nat → Nat
  | [] => 0
  | n :: l => n + sum l

end Spec
open Spec

/-! ## C32 -/

structure Safe (c : Cfg) (s : State) (out : List Nat) : Prop where
  ids : ∀ b ∈ s.empty ++ s.map.map (·.2) ++ out, b < c.buffers
  null : s.cur = none → s.seen = noFrame
  bufId : s.cur ≠ none → s.cur ≠ some .scratch → s.bufId < c.buffers
  drop : s.cur = some .scratch → s.dropping = true

theorem select_safe (c : Cfg) (s : State) (f : Nat) (now : Int) (out : List Nat) (h : Safe c s out) (hf : f ≠ noFrame) :
    ∃ s', select c s f now = some s' ∧ Safe c s' out ∧ s'.cur ≠ none := by
  unfold select
  by_cases he : f = s.seen
  · rw [if_pos he]
    exact ⟨s, rfl, h, fun hc => hf (he.trans (h.null hc))⟩
  · rw [if_neg he]
    cases hl : lookup s.map f with
    | some b =>
      have hb : b < c.buffers := h.ids b (by
        have := List.mem_map_of_mem (f := (·.2)) (lookup_mem hl)
        simp only [List.mem_append]
        exact Or.inl (Or.inr this))
      simp only
      rw [if_pos hb]
      exact ⟨_, rfl, ⟨h.ids, fun hc => (by cases hc), fun _ _ => hb, fun hc => (by cases hc)⟩, fun hc => (by cases hc)⟩
    | none =>
      simp only
      cases hq : s.empty with
      | nil =>
        exact ⟨_, rfl, ⟨h.ids, fun hc => (by cases hc), fun _ hc => absurd rfl hc, fun _ => rfl⟩, fun hc => (by cases hc)⟩
      | cons b q =>
        have hb : b < c.buffers := h.ids b (by rw [hq]; simp)
        simp only
        rw [if_pos hb]
        refine ⟨_, rfl, ⟨?_, fun hc => (by cases hc), fun _ _ => hb, fun hc => (by cases hc)⟩, fun hc => (by cases hc)⟩
        intro x hx
        refine h.ids x ?_
        rw [hq]
        replace hx : x ∈ q ++ (b :: s.map.map (·.2)) ++ out := hx
        simp only [List.mem_append, List.mem_cons] at hx ⊢
        rcases hx with (hx | hx | hx) | hx
        · exact Or.inl (Or.inl (Or.inr hx))
        · exact Or.inl (Or.inl (Or.inl hx))
        · exact Or.inl (Or.inr hx)
        · exact Or.inr hx

theorem fits_of_lt (c : Cfg) (l : Loc) (n : Nat) (ha : c.accepted = true) (hn : n < c.packets) : fits c l n = true := by
  unfold Cfg.accepted at ha
  rw [Bool.and_eq_true, decide_eq_true_eq, decide_eq_true_eq] at ha
  unfold fits
  rw [decide_eq_true_eq]
  have h1 : c.size * n + c.size ≤ c.packets * c.size := by
    rw [← Nat.mul_succ, Nat.mul_comm]
    exact Nat.mul_le_mul_right _ hn
  cases l with
  | shared b => unfold capacity Cfg.bufferSize; simp only; omega
  | scratch =>
    have h2 : c.packets * c.size ≤ maxPackets * maxPacketSize := Nat.mul_le_mul ha.1 ha.2
    unfold capacity scratchSize
    rw [Nat.mul_comm maxPacketSize]
    simp only
    omega

theorem store_some (c : Cfg) (s : State) (p : Packet) (ha : c.accepted = true) (hn : p.num < c.packets)
    (hc : s.cur ≠ none) : ∃ s', store c s p = some s' := by
  unfold store
  cases h : s.cur with
  | none => exact absurd h hc
  | some l =>
    simp only
    have h1 : c.packets ≤ maxPackets := by
      unfold Cfg.accepted at ha
      rw [Bool.and_eq_true, decide_eq_true_eq] at ha
      exact ha.1
    rw [if_neg (by
      rw [fits_of_lt c l p.num ha hn]
      rintro (h2 | h2)
      · omega
      · cases h2)]
    exact ⟨_, rfl⟩

theorem store_safe (c : Cfg) (s s' : State) (p : Packet) (out : List Nat) (h : Safe c s out) (hs : store c s p = some s') :
    Safe c s' out := by
  obtain ⟨a1, a2, a3, a4, a5, a6, -⟩ := store_frame c s s' p hs
  exact ⟨by rw [a1, a2]; exact h.ids, by rw [a3, a4]; exact h.null, by rw [a4, a5]; exact h.bufId,
    by rw [a4, a6]; exact h.drop⟩

theorem finish_safe (c : Cfg) (s s' : State) (rs : List Ready) (out : List Nat) (h : Safe c s out)
    (hs : finish c s = some (s', rs)) : Safe c s' (out ++ rs.map (·.buffer)) := by
  unfold finish at hs
  cases hc : s.cur with
  | none => rw [hc] at hs; cases hs
  | some l =>
    rw [hc] at hs
    simp only at hs
    split at hs
    · split at hs
      · cases hs
        simp only [List.map_nil, List.append_nil]
        exact ⟨h.ids, h.null, h.bufId, h.drop⟩
      · rename_i hd
        cases hs
        refine ⟨?_, fun _ => rfl, h.bufId, h.drop⟩
        intro x hx
        replace hx : x ∈ s.empty ++ (erase s.map s.seen).map (·.2) ++ (out ++ [s.bufId]) := hx
        simp only [List.mem_append, List.mem_singleton] at hx
        rcases hx with (hx | hx) | hx | hx
        · exact h.ids x (by simp only [List.mem_append]; exact Or.inl (Or.inl hx))
        · obtain ⟨y, hy, e⟩ := List.mem_map.1 hx
          exact h.ids x (by
            simp only [List.mem_append]
            exact Or.inl (Or.inr (List.mem_map.2 ⟨y, (mem_erase.1 hy).1, e⟩)))
        · exact h.ids x (by simp only [List.mem_append]; exact Or.inr hx)
        · rw [hx]
          refine h.bufId (by rw [hc]; exact fun e => by cases e) (fun e => hd (h.drop e))
    · cases hs
      simp only [List.map_nil, List.append_nil]
      exact ⟨h.ids, h.null, h.bufId, h.drop⟩

theorem finish_some (c : Cfg) (s : State) (hc : s.cur ≠ none) : ∃ r, finish c s = some r := by
  unfold finish
  cases h : s.cur with
  | none => exact absurd h hc
  | some l =>
    simp only
    split
    · split <;> exact ⟨_, rfl⟩
    · exact ⟨_, rfl⟩

theorem packet_some (c : Cfg) (s : State) (p : Packet) (now : Int) (out : List Nat) (h : Safe c s out)
    (ha : c.accepted = true) (hn : p.num < c.packets) (hf : p.frame ≠ noFrame) : ∃ r, packet c s p now = some r := by
  obtain ⟨s1, h1, h2, h3⟩ := select_safe c s p.frame now out h hf
  obtain ⟨s2, h4⟩ := store_some c s1 p ha hn h3
  have h5 : s2.cur ≠ none := by rw [(store_frame c s1 s2 p h4).2.2.2.1]; exact h3
  obtain ⟨r, h6⟩ := finish_some c s2 h5
  exact ⟨r, by unfold packet; rw [h1]; simp only [Option.bind_some]; rw [h4]; exact h6⟩

theorem packet_safe (c : Cfg) (s s' : State) (p : Packet) (now : Int) (rs : List Ready) (out : List Nat)
    (h : Safe c s out) (hs : packet c s p now = some (s', rs)) (hf : p.frame ≠ noFrame) :
    Safe c s' (out ++ rs.map (·.buffer)) := by
  unfold packet at hs
  obtain ⟨s1, h1, hs⟩ := Option.bind_eq_some_iff.1 hs
  obtain ⟨s2, h2, hs⟩ := Option.bind_eq_some_iff.1 hs
  obtain ⟨t, ht, hsafe, _⟩ := select_safe c s p.frame now out h hf
  rw [h1] at ht
  cases ht
  exact finish_safe c s2 s' rs out (store_safe c s1 s2 p out hsafe h2) hs

theorem monitorLoop_safe (c : Cfg) (now : Int) (m : List (Nat × Nat)) : ∀ (s s' : State) (rs : List Ready)
    (out : List Nat), Safe c s out → monitorLoop c now m s = some (s', rs) → Safe c s' (out ++ rs.map (·.buffer)) := by
  induction m with
  | nil => intro s s' rs out h hs; cases hs; simpa using h
  | cons x m ih =>
    intro s s' rs out h hs
    obtain ⟨f, b⟩ := x
    simp only [monitorLoop] at hs
    split at hs
    · rename_i hb
      cases he : elapsedMs (s.bufs (.shared b)).start now with
      | none => rw [he] at hs; cases hs
      | some ms =>
        rw [he] at hs
        simp only at hs
        split at hs
        · obtain ⟨r, hr, e⟩ := Option.map_eq_some_iff.1 hs
          cases e
          have := ih (timeOut c s f b).1 r.1 r.2 (out ++ [b]) ⟨by
            intro y hy
            replace hy : y ∈ s.empty ++ (erase s.map f).map (·.2) ++ (out ++ [b]) := hy
            simp only [List.mem_append, List.mem_singleton] at hy
            rcases hy with (hy | hy) | hy | hy
            · exact h.ids y (by simp only [List.mem_append]; exact Or.inl (Or.inl hy))
            · obtain ⟨z, hz, e⟩ := List.mem_map.1 hy
              exact h.ids y (by
                simp only [List.mem_append]
                exact Or.inl (Or.inr (List.mem_map.2 ⟨z, (mem_erase.1 hz).1, e⟩)))
            · exact h.ids y (by simp only [List.mem_append]; exact Or.inr hy)
            · rw [hy]; exact hb, h.null, h.bufId, h.drop⟩ hr
          simpa [timeOut] using this
        · exact ih s s' rs out h hs
    · cases hs

theorem step_safe (c : Cfg) (w w' : World) (e : Ev) (h : Safe c w.s w.out)
    (hp : ∀ p now, e = .packet p now → p.frame ≠ 4294967295) (hs : step c w e = some w') : Safe c w'.s w'.out := by
  cases e with
  | packet p now =>
    obtain ⟨r, hr, e⟩ := Option.map_eq_some_iff.1 hs
    cases e
    exact packet_safe c w.s r.1 p now r.2 w.out h hr (hp p now rfl)
  | tick now =>
    obtain ⟨r, hr, e⟩ := Option.map_eq_some_iff.1 hs
    cases e
    exact monitorLoop_safe c now w.s.map w.s r.1 r.2 w.out h hr
  | release b =>
    simp only [step] at hs
    split at hs
    · rename_i hb
      cases hs
      refine ⟨?_, h.null, h.bufId, h.drop⟩
      intro x hx
      replace hx : x ∈ (w.s.empty ++ [b]) ++ w.s.map.map (·.2) ++ w.out.erase b := hx
      refine h.ids x ?_
      simp only [List.mem_append, List.mem_singleton] at hx ⊢
      rcases hx with ((hx | hx) | hx) | hx
      · exact Or.inl (Or.inl hx)
      · rw [hx]; exact Or.inr hb
      · exact Or.inl (Or.inr hx)
      · exact Or.inr (List.mem_of_mem_erase hx)
    · cases hs; exact h

theorem init_safe (c : Cfg) : Safe c (init c).s (init c).out := by
  refine ⟨?_, fun _ => rfl, fun hc => absurd rfl hc, fun hc => (by cases hc)⟩
  intro b hb
  have hb : b ∈ List.range c.buffers ++ [] ++ [] := hb
  simpa using hb

/-- C32, full statement: after every history, every packet header is processed within the buffers. -/
def C32_statement : Prop :=
  ∀ (c : Cfg) (evs : List Ev) (w : World) (p : Packet) (now : Int), c.accepted = true →
    run c (init c) evs = some w → p.frame < 4294967296 → p.num < 4294967296 → (packet c w.s p now).isSome = true

/-- C32, proved part: packet numbers of the frame, and frame numbers other than 0xFFFFFFFF; after every history,
also with late and duplicate packets and any times. Missing: other headers (`C32_violated`). -/
theorem C32_partial (c : Cfg) (evs : List Ev) (w : World) (p : Packet) (now : Int) (ha : c.accepted = true)
    (hp : Every c (fun _ p => p.frame ≠ 4294967295) (init c) evs) (hr : run c (init c) evs = some w)
    (hf : p.frame ≠ 4294967295) (hn : p.num < c.packets) : (packet c w.s p now).isSome = true := by
  have := run_induct c (fun _ p => p.frame ≠ 4294967295) (fun w => Safe c w.s w.out)
    (fun w w' e h hp hs => step_safe c w w' e h hp hs) evs (init c) w (init_safe c) hp hr
  obtain ⟨r, hr⟩ := packet_some c w.s p now w.out this ha hn hf
  rw [hr]; rfl

/-- C32 is false of the code: nothing compares the packet number with the size of the buffer. -/
theorem C32_violated : ¬ C32_statement := by
  intro h
  have := h small [] (init small) ⟨0, 2, 7⟩ 0 (by decide) rfl (by decide) (by decide)
  exact absurd this (by decide +kernel)

/-- The state byte is out of its array from packet number 4195 on, whatever the buffers. -/
theorem C32_violated_state (c : Cfg) (s : State) (p : Packet) (now : Int) (h : 4195 ≤ p.num) : packet c s p now = none := by
  unfold packet
  cases h1 : select c s p.frame now with
  | none => rfl
  | some s1 =>
    simp only [Option.bind_some]
    have : store c s1 p = none := by
      unfold store
      cases s1.cur with
      | none => rfl
      | some l => simp only; rw [if_pos (Or.inl (show p.num ≥ maxPackets from h))]
    rw [this]; rfl

/-- The payload of packet P of a frame of P packets ends outside its buffer. -/
theorem C32_violated_payload (c : Cfg) (hs : 0 < c.size) (b : Nat) : fits c (.shared b) c.packets = false := by
  unfold fits capacity Cfg.bufferSize
  rw [decide_eq_false_iff_not, Nat.mul_comm c.packets]
  simp only
  omega

/-- The first packet has frame number 0xFFFFFFFF, which equals the initial `current_frame_seen_`: no buffer has been
selected, and a null pointer is used. -/
theorem C32_violated_first (c : Cfg) (p : Packet) (now : Int) (h : p.frame = 4294967295) :
    packet c (init c).s p now = none := by
  unfold packet select
  rw [if_pos (by rw [h]; rfl)]
  rfl

/-- The sizes accepted are 4195 packets of 8964 bytes, and that is exactly what the buffer for dropped frames holds behind its header. -/
theorem C32_limits (c : Cfg) : (c.accepted = true ↔ c.packets ≤ 4195 ∧ c.size ≤ 8964) ∧ scratchSize = 4240 + 4195 * 8964 := by
  refine ⟨?_, rfl⟩
  unfold Cfg.accepted
  rw [Bool.and_eq_true, decide_eq_true_eq, decide_eq_true_eq]
  rfl

example : Cfg.accepted { packets := 4195, size := 8964, buffers := 1, timeout := 1000 } = true ∧
    Cfg.accepted { packets := 4195, size := 8965, buffers := 1, timeout := 1000 } = false ∧
    Cfg.accepted { packets := 4196, size := 8964, buffers := 1, timeout := 1000 } = false := by decide

/-! ## C33 -/

/-- What the header and payloads of a frame in reception say is what has arrived. -/
structure Good (c : Cfg) (f : Nat) (l : List (Nat × Nat)) (b : Buf) : Prop where
  frame : b.frame = f
  nodup : b.got.Nodup
  received : b.received = b.got.length
  below : ∀ k ∈ b.got, k < c.packets
  pay : ∀ k ∈ b.got, (k, b.pay k) ∈ l
  all : ∀ x ∈ l, x.1 ∈ b.got

theorem good_init (c : Cfg) (f : Nat) (b : Buf) (now : Int) :
    Good c f [] { b with frame := f, state := .incomplete, start := now, received := 0, got := [] } :=
  ⟨rfl, List.nodup_nil, rfl, fun k hk => (by cases hk), fun k hk => (by cases hk), fun x hx => (by cases hx)⟩

theorem length_le_of_below {n : Nat} {l : List Nat} (hn : l.Nodup) (hb : ∀ k ∈ l, k < n) : l.length ≤ n := by
  have h : l ⊆ List.range n := fun k hk => List.mem_range.2 (hb k hk)
  have := hn.length_le_of_subset h
  simpa using this

theorem all_of_length {n : Nat} {l : List Nat} (hn : l.Nodup) (hb : ∀ k ∈ l, k < n) (hl : l.length = n) :
    ∀ k, k < n → k ∈ l := by
  intro k hk
  by_cases hm : k ∈ l
  · exact hm
  · have h1 : (k :: l).Nodup := List.nodup_cons.2 ⟨hm, hn⟩
    have h2 : ∀ i ∈ k :: l, i < n := by
      intro i hi
      rcases List.mem_cons.1 hi with rfl | hi
      · exact hk
      · exact hb i hi
    have := length_le_of_below h1 h2
    rw [List.length_cons] at this
    omega

theorem good_add (c : Cfg) (f : Nat) (l : List (Nat × Nat)) (b : Buf) (p : Packet) (ha : c.packets ≤ maxPackets)
    (h : Good c f l b) (hn : p.num < c.packets) (hd : p.num ∉ l.map (·.1)) :
    Good c f ((p.num, p.pay) :: l) (counted (stored b p)) := by
  have hg : p.num ∉ b.got := fun hk => hd (List.mem_map.2 ⟨_, h.pay _ hk, rfl⟩)
  have he : (counted (stored b p)).got = p.num :: b.got := by simp [counted, stored, hg]
  have hnd : (p.num :: b.got).Nodup := List.nodup_cons.2 ⟨hg, h.nodup⟩
  have hbl : ∀ k ∈ p.num :: b.got, k < c.packets := by
    intro k hk
    rcases List.mem_cons.1 hk with rfl | hk
    · exact hn
    · exact h.below k hk
  refine ⟨h.frame, by rw [he]; exact hnd, ?_, by rw [he]; exact hbl, ?_, ?_⟩
  · have := length_le_of_below hnd hbl
    rw [he]
    show (b.received + 1) % 4294967296 = _
    rw [h.received]
    rw [List.length_cons] at this ⊢
    exact Nat.mod_eq_of_lt (by unfold maxPackets at ha; omega)
  · rw [he]
    intro k hk
    show (k, if k = p.num then p.pay else b.pay k) ∈ _
    by_cases hkn : k = p.num
    · rw [if_pos hkn, hkn]; simp
    · rw [if_neg hkn]
      rcases List.mem_cons.1 hk with hk | hk
      · exact absurd hk hkn
      · exact List.mem_cons_of_mem _ (h.pay k hk)
  · rw [he]
    intro x hx
    rcases List.mem_cons.1 hx with rfl | hx
    · simp
    · exact List.mem_cons_of_mem _ (h.all x hx)

/-- All frames in reception are as they should be. -/
def Dat (c : Cfg) (s : State) (rx : Nat → List (Nat × Nat)) : Prop :=
  (∀ f b, lookup s.map f = some b → Good c f (rx f) (s.bufs (.shared b))) ∧ ∀ f, lookup s.map f = none → rx f = []

theorem own_distinct {c : Cfg} {s : State} {out stale : List Nat} (h : Own c s out stale) {f g b : Nat}
    (hf : lookup s.map f = some b) (hg : lookup s.map g = some b) : f = g := by
  have hn : (s.map.map (·.2)).Nodup := by
    have := h.perm.nodup_iff.2 List.nodup_range
    rw [List.append_assoc] at this
    exact (List.nodup_append.1 (List.nodup_append.1 this).2.1).1
  have h1 := lookup_mem hf
  have h2 := lookup_mem hg
  obtain ⟨i, hi, e1⟩ := List.mem_iff_getElem.1 h1
  obtain ⟨j, hj, e2⟩ := List.mem_iff_getElem.1 h2
  have hij : i = j := by
    apply (List.getElem_inj (h₀ := by simpa using hi) (h₁ := by simpa using hj) hn).1
    rw [List.getElem_map, List.getElem_map, e1, e2]
  subst hij
  rw [e1] at e2
  exact (Prod.mk.inj e2).1

theorem select_dat (c : Cfg) (s s' : State) (f : Nat) (now : Int) (out stale : List Nat) (rx : Nat → List (Nat × Nat))
    (h : Own c s out stale) (hd : Dat c s rx) (hs : select c s f now = some s') : Dat c s' rx := by
  unfold select at hs
  by_cases he : f = s.seen
  · rw [if_pos he] at hs
    cases hs
    exact hd
  · rw [if_neg he] at hs
    cases hl : lookup s.map f with
    | some b =>
      rw [hl] at hs
      simp only at hs
      split at hs
      · cases hs; exact hd
      · cases hs
    | none =>
      rw [hl] at hs
      simp only at hs
      cases hq : s.empty with
      | nil =>
        rw [hq] at hs
        cases hs
        exact hd
      | cons b q =>
        rw [hq] at hs
        simp only at hs
        split at hs
        · cases hs
          constructor
          · intro g b' hb'
            replace hb' : lookup ((f, b) :: s.map) g = some b' := hb'
            simp only [lookup] at hb'
            split at hb'
            · rename_i e
              cases hb'
              subst e
              rw [hd.2 f hl]
              have : (initHeader (openFrame s f b q) (.shared b) now).bufs (.shared b) =
                  { s.bufs (.shared b) with frame := f, state := .incomplete, start := now, received := 0, got := [] } := by
                simp [initHeader, openFrame, setBuf]
              rw [this]
              exact good_init c f _ now
            · have hne : b' ≠ b := by
                rintro rfl
                have hnd := h.perm.nodup_iff.2 List.nodup_range
                rw [hq, List.append_assoc] at hnd
                have hm := List.mem_map_of_mem (f := (·.2)) (lookup_mem hb')
                exact (List.nodup_append.1 hnd).2.2 b' (by simp) b' (List.mem_append_left _ hm) rfl
              have : (initHeader (openFrame s f b q) (.shared b) now).bufs (.shared b') = s.bufs (.shared b') := by
                simp [initHeader, openFrame, setBuf, hne]
              rw [this]
              exact hd.1 g b' hb'
          · intro g hg
            replace hg : lookup ((f, b) :: s.map) g = none := hg
            simp only [lookup] at hg
            split at hg
            · cases hg
            · exact hd.2 g hg
        · cases hs

/-- The frames handed on. -/
def LogGood (c : Cfg) (x : Ready × List (Nat × Nat)) : Prop :=
  Good c x.1.frame x.2 x.1.buf ∧ (x.1.buf.state = .complete → x.1.buf.received = c.packets) ∧
  x.1.buf.state ≠ .incomplete

theorem good_state {c : Cfg} {f : Nat} {l : List (Nat × Nat)} {b : Buf} (st : FState) (h : Good c f l b) :
    Good c f l { b with state := st } := ⟨h.frame, h.nodup, h.received, h.below, h.pay, h.all⟩

theorem countPacket_bufs (s : State) : (countPacket s).bufs = s.bufs := by
  unfold countPacket; split <;> rfl

theorem handrx_dat (c : Cfg) (s : State) (rx : Nat → List (Nat × Nat))
    (h : ∀ f b, lookup s.map f = some b → Good c f (rx f) (s.bufs (.shared b))) :
    Dat c s (fun f => if lookup s.map f = none then [] else rx f) := by
  constructor
  · intro f b hb
    simp only [hb]
    simpa using h f b hb
  · intro f hf
    simp only [hf]
    simp

/-- The state after the packet of the current frame. -/
theorem write_dat (c : Cfg) (s1 s2 s' : State) (p : Packet) (rs : List Ready) (out : List Nat) (rx : Nat → List (Nat × Nat))
    (ha : c.packets ≤ maxPackets) (ho : Own c s1 out []) (hf : s1.seen = p.frame) (hr : p.frame ≠ noFrame)
    (hd : Dat c s1 rx) (hn : p.num < c.packets) (hdup : p.num ∉ (rx p.frame).map (·.1))
    (h2 : store c s1 p = some s2) (h3 : finish c s2 = some (s', rs)) :
    Dat c s' (fun f => if lookup s'.map f = none then [] else rxAdd rx p f) ∧
    ∀ r ∈ rs, LogGood c (r, rxAdd rx p r.frame) := by
  cases hl : lookup s1.map s1.seen with
  | none =>
    have hsc : s1.cur = some .scratch := by
      rcases ho.unmapped hl with h | h | h
      · exact absurd (hf.symm.trans h) hr
      · exact h
      · cases h
    have hdr := ho.scratch hsc
    unfold store at h2
    rw [hsc] at h2
    simp only at h2
    split at h2
    · cases h2
    · cases h2
      unfold countPacket at h3
      rw [if_pos (show (setBuf s1 .scratch (stored (s1.bufs .scratch) p)).dropping = true from hdr)] at h3
      have key : s'.map = s1.map ∧ (∀ b, s'.bufs (.shared b) = s1.bufs (.shared b)) ∧ rs = [] := by
        unfold finish at h3
        rw [show ({ setBuf s1 .scratch (stored (s1.bufs .scratch) p) with
          dropped := ((setBuf s1 .scratch (stored (s1.bufs .scratch) p)).dropped + 1) % 4294967296 } : State).cur = some .scratch from hsc] at h3
        simp only at h3
        split at h3
        · split at h3
          · cases h3; exact ⟨rfl, fun b => by simp [setBuf], rfl⟩
          · rename_i hx; exact absurd hdr hx
        · cases h3; exact ⟨rfl, fun b => by simp [setBuf], rfl⟩
      obtain ⟨k1, k2, k3⟩ := key
      refine ⟨handrx_dat c s' _ ?_, by rw [k3]; intro r hr; cases hr⟩
      intro f b hb
      rw [k1] at hb
      rw [k2]
      have hne : f ≠ p.frame := by
        rintro rfl
        rw [hf, hb] at hl
        cases hl
      rw [show rxAdd rx p f = rx f from if_neg hne]
      exact hd.1 f b hb
  | some b =>
    have hb := ho.mapped b hl
    have hg := hd.1 _ b hl
    rw [hf] at hg
    have hga := good_add c p.frame (rx p.frame) (s1.bufs (.shared b)) p ha hg hn hdup
    unfold store at h2
    rw [hb.1] at h2
    simp only at h2
    split at h2
    · cases h2
    · have e2 := Option.some.inj h2
      have m2 := store_frame c s1 s2 p (by unfold store; rw [hb.1]; simp only; rw [if_neg (by assumption)]; exact h2)
      have b2 : ∀ l, s2.bufs l = if l = .shared b then stored (s1.bufs (.shared b)) p else s1.bufs l := by
        intro l
        rw [← e2, countPacket_bufs]
        rfl
      have b2s : s2.bufs (.shared b) = stored (s1.bufs (.shared b)) p := by rw [b2]; simp
      have b2o : ∀ b', b' ≠ b → s2.bufs (.shared b') = s1.bufs (.shared b') := by
        intro b' hne; rw [b2]; simp [hne]
      have rxs : rxAdd rx p p.frame = (p.num, p.pay) :: rx p.frame := if_pos rfl
      have keep : ∀ (s3 : State) (x : Buf), s3.map = s1.map → (∀ l, s3.bufs l = if l = .shared b then x else s2.bufs l) →
          Good c p.frame ((p.num, p.pay) :: rx p.frame) x →
          ∀ f b', lookup s3.map f = some b' → Good c f (rxAdd rx p f) (s3.bufs (.shared b')) := by
        intro s3 x hm hbf hx f b' hb'
        rw [hm] at hb'
        by_cases hff : f = p.frame
        · subst hff
          rw [hf, hb'] at hl
          cases hl
          rw [rxs, hbf]
          simpa using hx
        · have hne : b' ≠ b := by
            rintro rfl
            exact hff ((own_distinct ho hb' hl).trans hf)
          rw [show rxAdd rx p f = rx f from if_neg hff, hbf]
          simp only [Loc.shared.injEq, hne, if_false]
          rw [b2o b' hne]
          exact hd.1 f b' hb'
      unfold finish at h3
      rw [m2.2.2.2.1, hb.1] at h3
      simp only at h3
      rw [b2s] at h3
      split at h3
      · rename_i hP
        split at h3
        · cases h3
          refine ⟨handrx_dat c _ _ (keep _ _ m2.2.1 (fun l => rfl) (good_state .complete hga)), fun r hr => (by cases hr)⟩
        · cases h3
          refine ⟨handrx_dat c _ _ ?_, ?_⟩
          · intro f b' hb'
            replace hb' : lookup (erase s2.map s2.seen) f = some b' := hb'
            have hne : f ≠ s2.seen := by
              rintro rfl
              rw [lookup_erase_self] at hb'
              cases hb'
            rw [lookup_erase_ne hne] at hb'
            exact keep (setBuf s2 (.shared b) (completed (counted (stored (s1.bufs (.shared b)) p)))) _ m2.2.1
              (fun l => rfl) (good_state .complete hga) f b' hb'
          · intro r hr
            rw [List.mem_singleton] at hr
            subst hr
            have hfr : (completed (counted (stored (s1.bufs (.shared b)) p))).frame = p.frame := hga.frame
            refine ⟨?_, fun _ => hP, fun e => (by cases e)⟩
            show Good c (completed (counted (stored (s1.bufs (.shared b)) p))).frame
              (rxAdd rx p (completed (counted (stored (s1.bufs (.shared b)) p))).frame) _
            rw [hfr, rxs]
            exact good_state .complete hga
      · cases h3
        exact ⟨handrx_dat c _ _ (keep _ _ m2.2.1 (fun l => rfl) hga), fun r hr => (by cases hr)⟩

theorem timeOut_dat (c : Cfg) (s : State) (f b : Nat) (out stale : List Nat) (rx : Nat → List (Nat × Nat))
    (h : Own c s out stale) (hm : (f, b) ∈ s.map)
    (hd : ∀ f b, lookup s.map f = some b → Good c f (rx f) (s.bufs (.shared b))) :
    (∀ g b', lookup (timeOut c s f b).1.map g = some b' → Good c g (rx g) ((timeOut c s f b).1.bufs (.shared b'))) ∧
    LogGood c ((timeOut c s f b).2, rx f) := by
  have hl := mem_lookup h.keys hm
  constructor
  · intro g b' hb'
    replace hb' : lookup (erase s.map f) g = some b' := hb'
    have hne : g ≠ f := by
      rintro rfl
      rw [lookup_erase_self] at hb'
      cases hb'
    rw [lookup_erase_ne hne] at hb'
    have hbn : b' ≠ b := by
      rintro rfl
      exact hne (own_distinct h hb' hl)
    have : (timeOut c s f b).1.bufs (.shared b') = s.bufs (.shared b') := by simp [timeOut, setBuf, hbn]
    rw [this]
    exact hd g b' hb'
  · exact ⟨good_state .timedout (hd f b hl), fun e => (by cases e), fun e => (by cases e)⟩

theorem monitorLoop_dat (c : Cfg) (now : Int) (rx : Nat → List (Nat × Nat)) (m : List (Nat × Nat)) :
    ∀ (s s' : State) (rs : List Ready) (out stale : List Nat), Own c s out stale → (∀ x ∈ m, x ∈ s.map) →
    (m.map (·.1)).Nodup → (∀ f b, lookup s.map f = some b → Good c f (rx f) (s.bufs (.shared b))) →
    monitorLoop c now m s = some (s', rs) →
    (∀ f b, lookup s'.map f = some b → Good c f (rx f) (s'.bufs (.shared b))) ∧
    ∀ r ∈ rs, LogGood c (r, rx r.frame) := by
  induction m with
  | nil => intro s s' rs out stale _ _ _ hd hs; cases hs; exact ⟨hd, fun r hr => (by cases hr)⟩
  | cons x m ih =>
    intro s s' rs out stale h hm hn hd hs
    obtain ⟨f, b⟩ := x
    rw [List.map_cons, List.nodup_cons] at hn
    simp only [monitorLoop] at hs
    split at hs
    · cases he : elapsedMs (s.bufs (.shared b)).start now with
      | none => rw [he] at hs; cases hs
      | some ms =>
        rw [he] at hs
        simp only at hs
        split at hs
        · obtain ⟨r, hr, e⟩ := Option.map_eq_some_iff.1 hs
          cases e
          have hmem := hm _ (List.mem_cons_self)
          obtain ⟨d1, d2⟩ := timeOut_dat c s f b out stale rx h hmem hd
          obtain ⟨i1, i2⟩ := ih (timeOut c s f b).1 r.1 r.2 (out ++ [b]) (stale ++ [f])
            (timeOut_own c s f b out stale h hmem)
            (fun y hy => mem_erase.2 ⟨hm y (List.mem_cons_of_mem _ hy), fun e => hn.1 (List.mem_map.2 ⟨y, hy, e⟩)⟩)
            hn.2 d1 hr
          refine ⟨i1, ?_⟩
          intro q hq
          rcases List.mem_cons.1 hq with rfl | hq
          · exact d2
          · exact i2 q hq
        · exact ih s s' rs out stale h (fun y hy => hm y (List.mem_cons_of_mem _ hy)) hn.2 hd hs
    · cases hs

structure Inv (c : Cfg) (w : World) : Prop where
  own : Own c w.s w.out w.stale
  dat : Dat c w.s w.rx
  log : ∀ x ∈ w.log, LogGood c x

theorem log_append {c : Cfg} {w : World} {rs : List Ready} {rx : Nat → List (Nat × Nat)} (h : ∀ x ∈ w.log, LogGood c x)
    (h2 : ∀ r ∈ rs, LogGood c (r, rx r.frame)) :
    ∀ x ∈ w.log ++ rs.map (fun r => (r, rx r.frame)), LogGood c x := by
  intro x hx
  rcases List.mem_append.1 hx with hx | hx
  · exact h x hx
  · obtain ⟨r, hr, e⟩ := List.mem_map.1 hx
    subst e
    exact h2 r hr

theorem step_inv (c : Cfg) (ha : c.accepted = true) (w w' : World) (e : Ev) (h : Inv c w)
    (hp : ∀ p now, e = .packet p now → Regular c w p) (hs : step c w e = some w') : Inv c w' := by
  have hown := step_own c w w' e h.own (fun p now he => (hp p now he).1) hs
  have hpk : c.packets ≤ maxPackets := by
    unfold Cfg.accepted at ha
    rw [Bool.and_eq_true, decide_eq_true_eq] at ha
    exact ha.1
  cases e with
  | packet p now =>
    obtain ⟨⟨p1, p2⟩, p3, p4⟩ := hp p now rfl
    obtain ⟨r, hr, e⟩ := Option.map_eq_some_iff.1 hs
    cases e
    unfold packet at hr
    obtain ⟨s1, h1, hr⟩ := Option.bind_eq_some_iff.1 hr
    obtain ⟨s2, h2, hr⟩ := Option.bind_eq_some_iff.1 hr
    obtain ⟨ho, hseen⟩ := select_own c w.s s1 p.frame now w.out w.stale h.own p1 p2 h1
    have hd := select_dat c w.s s1 p.frame now w.out w.stale w.rx h.own h.dat h1
    obtain ⟨g1, g2⟩ := write_dat c s1 s2 r.1 p r.2 w.out w.rx hpk ho hseen p2 hd p3 p4 h2 hr
    exact ⟨hown, g1, log_append h.log g2⟩
  | tick now =>
    obtain ⟨r, hr, e⟩ := Option.map_eq_some_iff.1 hs
    cases e
    obtain ⟨g1, g2⟩ := monitorLoop_dat c now w.rx w.s.map w.s r.1 r.2 w.out w.stale h.own (fun _ hx => hx) h.own.keys
      h.dat.1 hr
    exact ⟨hown, handrx_dat c _ _ g1, log_append h.log g2⟩
  | release b =>
    simp only [step] at hs
    split at hs
    · cases hs; exact ⟨hown, h.dat, h.log⟩
    · cases hs; exact h

theorem init_inv (c : Cfg) : Inv c (init c) :=
  ⟨init_own c, ⟨fun f b hb => (by cases hb), fun _ _ => rfl⟩, fun x hx => (by cases hx)⟩

theorem run_inv (c : Cfg) (ha : c.accepted = true) (evs : List Ev) (w : World) (hp : Every c (Regular c) (init c) evs)
    (hr : run c (init c) evs = some w) : Inv c w :=
  run_induct c (Regular c) (Inv c) (fun w w' e h hp hs => step_inv c ha w w' e h hp hs) evs (init c) w (init_inv c) hp hr

/-- C33, full statement: of every frame handed on as complete every packet has arrived. -/
def C33_statement : Prop :=
  ∀ (c : Cfg) (evs : List Ev) (w : World), c.accepted = true → run c (init c) evs = some w →
    ∀ x ∈ w.log, x.1.buf.state = .complete → ∀ k, k < c.packets → k ∈ x.2.map (·.1)

/-- C33, proved part: without duplicates and packets for a frame that has just timed out; then the frame also
carries its own number, and every payload is where it belongs. Missing: duplicates (`C33_violated`). -/
theorem C33_partial (c : Cfg) (evs : List Ev) (w : World) (ha : c.accepted = true)
    (hp : Every c (Regular c) (init c) evs) (hr : run c (init c) evs = some w) :
    ∀ x ∈ w.log, x.1.buf.frame = x.1.frame ∧ (x.1.buf.state = .complete → ∀ k, k < c.packets → (k, x.1.buf.pay k) ∈ x.2) := by
  intro x hx
  obtain ⟨g, hc, _⟩ := (run_inv c ha evs w hp hr).log x hx
  refine ⟨g.frame, fun hst k hk => g.pay k (all_of_length g.nodup g.below ?_ k hk)⟩
  rw [← g.received, hc hst]

/-- And of a frame handed on as timed out, a packet is marked as received exactly if it arrived. -/
theorem C33_marks (c : Cfg) (evs : List Ev) (w : World) (ha : c.accepted = true)
    (hp : Every c (Regular c) (init c) evs) (hr : run c (init c) evs = some w) :
    ∀ x ∈ w.log, (∀ k, k ∈ x.1.buf.got ↔ k ∈ x.2.map (·.1)) ∧ ∀ k ∈ x.1.buf.got, (k, x.1.buf.pay k) ∈ x.2 := by
  intro x hx
  obtain ⟨g, _, _⟩ := (run_inv c ha evs w hp hr).log x hx
  refine ⟨fun k => ⟨fun hk => List.mem_map.2 ⟨_, g.pay k hk, rfl⟩, fun hk => ?_⟩, g.pay⟩
  obtain ⟨y, hy, e⟩ := List.mem_map.1 hk
  rw [← e]
  exact g.all y hy

/-- C33 is false of the code: a duplicate is counted like any packet. -/
theorem C33_violated : ¬ C33_statement := by
  intro h
  have h1 : (run small (init small) [.packet ⟨0, 0, 7⟩ 0, .packet ⟨0, 0, 7⟩ 1]).map
      (fun w => w.log.map (fun x => (x.1.buf.state, x.2.map (·.1)))) = some [(.complete, [0, 0])] := by decide +kernel
  cases hr : run small (init small) [.packet ⟨0, 0, 7⟩ 0, .packet ⟨0, 0, 7⟩ 1] with
  | none => rw [hr] at h1; cases h1
  | some w =>
    rw [hr] at h1
    have h2 : w.log.map (fun x => (x.1.buf.state, x.2.map (·.1))) = [(.complete, [0, 0])] := Option.some.inj h1
    cases hw : w.log with
    | nil => rw [hw] at h2; cases h2
    | cons x l =>
      rw [hw, List.map_cons] at h2
      have h3 := (List.cons.inj h2).1
      have := h small _ w (by decide) hr x (by rw [hw]; simp) (congrArg Prod.fst h3) 1 (by decide)
      have h4 : x.2.map (·.1) = [0, 0] := (Prod.mk.inj h3).2
      rw [h4] at this
      exact absurd this (by decide)

/-- Non-vacuity: packets out of order and interleaved, with a frame dropped and one timing out. -/
example : (run small (init small) [.packet ⟨0, 1, 7⟩ 0, .packet ⟨1, 0, 9⟩ 1, .packet ⟨0, 0, 8⟩ 2]).map
    (fun w => w.log.map (fun x => (x.1.buf.state, x.2))) = some [] ∧
  (run { small with buffers := 2 } (init { small with buffers := 2 })
    [.packet ⟨0, 1, 7⟩ 0, .packet ⟨1, 0, 9⟩ 1, .packet ⟨0, 0, 8⟩ 2, .tick 2000000000]).map
    (fun w => w.log.map (fun x => (x.1.buf.state, x.2))) = some [(.complete, [(0, 8), (1, 7)]), (.timedout, [(0, 9)])] := by
  decide +kernel

theorem regular_of_bool (c : Cfg) (w : World) (p : Packet)
    (h : (decide (p.frame ∉ w.stale) && decide (p.frame ≠ 4294967295) && decide (p.num < c.packets) &&
      decide (p.num ∉ (w.rx p.frame).map (·.1))) = true) : Regular c w p := by
  simp only [Bool.and_eq_true, decide_eq_true_eq] at h
  exact ⟨⟨h.1.1.1, h.1.1.2⟩, h.1.2, h.2⟩

example : Every { small with buffers := 2 } (Regular { small with buffers := 2 }) (init { small with buffers := 2 })
    [.packet ⟨0, 1, 7⟩ 0, .packet ⟨1, 0, 9⟩ 1, .packet ⟨0, 0, 8⟩ 2, .tick 2000000000] :=
  every_of_everyB _ _ _ (regular_of_bool _) _ _ (by decide +kernel)

end Verif.Decoder
