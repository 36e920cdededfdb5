import Verif.Props.DecoderData
/-! Properties C34, C35 and C61: counters, timeouts and completion of the frame decoder. -/
namespace Verif.Decoder

namespace Spec

/-- The frames handed on as timed out. -/
def World.timedout (w : World) : List (Ready × List (Nat × Nat)) :=
  w.log.filter (fun x => decide (x.1.buf.state = .timedout))

end Spec
open Spec

/-! ## Packets -/

theorem select_counters (c : Cfg) (s s' : State) (f : Nat) (now : Int) (h : select c s f now = some s') :
    s'.received = s.received ∧ s'.dropped = s.dropped ∧ s'.lost = s.lost ∧ s'.framesTimedout = s.framesTimedout := by
  unfold select at h
  split at h
  · cases h; exact ⟨rfl, rfl, rfl, rfl⟩
  · split at h
    · split at h
      · cases h; exact ⟨rfl, rfl, rfl, rfl⟩
      · cases h
    · split at h
      · cases h; exact ⟨rfl, rfl, rfl, rfl⟩
      · split at h
        · cases h; exact ⟨rfl, rfl, rfl, rfl⟩
        · cases h

theorem store_counters (c : Cfg) (s s' : State) (p : Packet) (h : store c s p = some s') :
    (s'.received + s'.dropped) % 4294967296 = (s.received + s.dropped + 1) % 4294967296 := by
  unfold store at h
  split at h
  · cases h
  · split at h
    · cases h
    · cases h
      unfold countPacket
      split
      · show (s.received + (s.dropped + 1) % 4294967296) % 4294967296 = _
        omega
      · show ((s.received + 1) % 4294967296 + s.dropped) % 4294967296 = _
        omega

theorem finish_counters (c : Cfg) (s : State) (r : State × List Ready) (h : finish c s = some r) :
    r.1.received = s.received ∧ r.1.dropped = s.dropped ∧ r.1.lost = s.lost ∧ r.1.framesTimedout = s.framesTimedout ∧
    r.1.framesDropped = s.framesDropped ∧ r.1.dropping = s.dropping ∧ ∀ x ∈ r.2, x.buf.state = .complete := by
  unfold finish at h
  split at h
  · cases h
  · split at h
    · split at h
      · cases h; exact ⟨rfl, rfl, rfl, rfl, rfl, rfl, fun x hx => (by cases hx)⟩
      · cases h
        refine ⟨rfl, rfl, rfl, rfl, rfl, rfl, fun x hx => ?_⟩
        rw [List.mem_singleton.1 hx]
        rfl
    · cases h; exact ⟨rfl, rfl, rfl, rfl, rfl, rfl, fun x hx => (by cases hx)⟩

theorem packet_counters (c : Cfg) (s : State) (p : Packet) (now : Int) (r : State × List Ready)
    (h : packet c s p now = some r) :
    (r.1.received + r.1.dropped) % 4294967296 = (s.received + s.dropped + 1) % 4294967296 ∧ r.1.lost = s.lost ∧
    r.1.framesTimedout = s.framesTimedout ∧ ∀ x ∈ r.2, x.buf.state = .complete := by
  unfold packet at h
  obtain ⟨s1, h1, h⟩ := Option.bind_eq_some_iff.1 h
  obtain ⟨s2, h2, h⟩ := Option.bind_eq_some_iff.1 h
  obtain ⟨a1, a2, a3, a4⟩ := select_counters c s s1 p.frame now h1
  obtain ⟨-, -, -, -, -, -, b1, -, b2⟩ := store_frame c s1 s2 p h2
  have b3 := store_counters c s1 s2 p h2
  obtain ⟨d1, d2, d3, d4, -, -, d5⟩ := finish_counters c s2 r h
  refine ⟨by rw [d1, d2, b3, a1, a2], by rw [d3, b1, a3], by rw [d4, b2, a4], d5⟩

theorem monitorLoop_counters (c : Cfg) (now : Int) (m : List (Nat × Nat)) : ∀ (s : State) (r : State × List Ready),
    monitorLoop c now m s = some r → r.1.received = s.received ∧ r.1.dropped = s.dropped ∧
    r.1.framesDropped = s.framesDropped ∧ r.1.dropping = s.dropping ∧
    r.1.framesTimedout % 4294967296 = (s.framesTimedout + r.2.length) % 4294967296 ∧
    r.1.lost % 4294967296 =
      (s.lost + sum (r.2.map (fun x => (c.packets + 4294967296 - x.buf.received) % 4294967296))) % 4294967296 ∧
    ∀ x ∈ r.2, x.buf.state = .timedout := by
  induction m with
  | nil => intro s r h; cases h; exact ⟨rfl, rfl, rfl, rfl, rfl, rfl, fun x hx => (by cases hx)⟩
  | cons x m ih =>
    intro s r h
    obtain ⟨f, b⟩ := x
    simp only [monitorLoop] at h
    split at h
    · split at h
      · cases h
      · split at h
        · obtain ⟨q, hq, e⟩ := Option.map_eq_some_iff.1 h
          cases e
          obtain ⟨a1, a2, a3, a4, a5, a6, a7⟩ := ih _ q hq
          refine ⟨a1, a2, a3, a4, ?_, ?_, ?_⟩
          · show q.1.framesTimedout % 4294967296 = _
            rw [a5]
            show ((s.framesTimedout + 1) % 4294967296 + q.2.length) % 4294967296 = (s.framesTimedout + (q.2.length + 1)) % 4294967296
            omega
          · show q.1.lost % 4294967296 = _
            rw [a6]
            show ((s.lost + (c.packets + 4294967296 - (s.bufs (.shared b)).received) % 4294967296) % 4294967296 + sum _) % 4294967296 =
              (s.lost + ((c.packets + 4294967296 - (s.bufs (.shared b)).received) % 4294967296 + sum _)) % 4294967296
            omega
          · intro y hy
            rcases List.mem_cons.1 hy with rfl | hy
            · rfl
            · exact a7 y hy
        · exact ih s r h
    · cases h

/-! ## C34 -/

/-- C34, full statement (counters are 32 bits wide). -/
def C34_statement : Prop :=
  ∀ (c : Cfg) (evs : List Ev) (w : World), c.accepted = true → run c (init c) evs = some w →
    (w.s.received + w.s.dropped) % 4294967296 = w.count % 4294967296 ∧
    w.s.lost = sum (w.timedout.map (fun x => missing c x.2)) % 4294967296 ∧
    w.s.framesTimedout = w.timedout.length % 4294967296 ∧
    w.s.framesDropped = w.refused % 4294967296

theorem filter_complete (rs : List Ready) (rx : Nat → List (Nat × Nat)) (h : ∀ x ∈ rs, x.buf.state = .complete) :
    (rs.map (fun r => (r, rx r.frame))).filter (fun x => decide (x.1.buf.state = FState.timedout)) = [] := by
  rw [List.filter_eq_nil_iff]
  intro x hx
  obtain ⟨r, hr, e⟩ := List.mem_map.1 hx
  subst e
  simp [h r hr]

theorem filter_timedout (rs : List Ready) (rx : Nat → List (Nat × Nat)) (h : ∀ x ∈ rs, x.buf.state = .timedout) :
    (rs.map (fun r => (r, rx r.frame))).filter (fun x => decide (x.1.buf.state = FState.timedout)) =
      rs.map (fun r => (r, rx r.frame)) := by
  rw [List.filter_eq_self]
  intro x hx
  obtain ⟨r, hr, e⟩ := List.mem_map.1 hx
  subst e
  simp [h r hr]

theorem hand_timedout (w : World) (s : State) (rs : List Ready) (rx : Nat → List (Nat × Nat)) :
    (w.hand s rs rx).timedout = w.timedout ++
      (rs.map (fun r => (r, rx r.frame))).filter (fun x => decide (x.1.buf.state = FState.timedout)) := by
  unfold World.timedout World.hand
  rw [List.filter_append]

/-- C34, packets: every packet is counted as received or as dropped, in every history. -/
theorem C34_packets (c : Cfg) (evs : List Ev) (w : World) (hr : run c (init c) evs = some w) :
    (w.s.received + w.s.dropped) % 4294967296 = w.count % 4294967296 := by
  refine run_induct c (fun _ _ => True) (fun w => (w.s.received + w.s.dropped) % 4294967296 = w.count % 4294967296)
    ?_ evs (init c) w rfl (every_true c evs _) hr
  · intro w w' e h _ hs
    cases e with
    | packet p now =>
      obtain ⟨r, hr, e⟩ := Option.map_eq_some_iff.1 hs
      cases e
      have := (packet_counters c w.s p now r hr).1
      show (r.1.received + r.1.dropped) % 4294967296 = (w.count + 1) % 4294967296
      omega
    | tick now =>
      obtain ⟨r, hr, e⟩ := Option.map_eq_some_iff.1 hs
      cases e
      obtain ⟨a1, a2, -⟩ := monitorLoop_counters c now _ _ r hr
      show (r.1.received + r.1.dropped) % 4294967296 = w.count % 4294967296
      rw [a1, a2]
      exact h
    | release b =>
      simp only [step] at hs
      split at hs <;> cases hs <;> exact h

/-- C34, timed-out frames: counted exactly, in every history. -/
theorem C34_timedout (c : Cfg) (evs : List Ev) (w : World) (hr : run c (init c) evs = some w) :
    w.s.framesTimedout % 4294967296 = w.timedout.length % 4294967296 := by
  refine run_induct c (fun _ _ => True) (fun w => w.s.framesTimedout % 4294967296 = w.timedout.length % 4294967296)
    ?_ evs (init c) w rfl (every_true c evs _) hr
  intro w w' e h _ hs
  cases e with
  | packet p now =>
    obtain ⟨r, hr, e⟩ := Option.map_eq_some_iff.1 hs
    cases e
    obtain ⟨-, -, a1, a2⟩ := packet_counters c w.s p now r hr
    show r.1.framesTimedout % 4294967296 = ((w.hand r.1 r.2 (rxAdd w.rx p)).timedout).length % 4294967296
    rw [hand_timedout, filter_complete _ _ a2, List.append_nil, a1]
    exact h
  | tick now =>
    obtain ⟨r, hr, e⟩ := Option.map_eq_some_iff.1 hs
    cases e
    obtain ⟨-, -, -, -, a1, -, a2⟩ := monitorLoop_counters c now _ _ r hr
    show r.1.framesTimedout % 4294967296 = ((w.hand r.1 r.2 w.rx).timedout).length % 4294967296
    rw [hand_timedout, filter_timedout _ _ a2, List.length_append, List.length_map, a1]
    omega
  | release b =>
    simp only [step] at hs
    split at hs <;> cases hs <;> exact h

theorem sum_append (a b : List Nat) : sum (a ++ b) = sum a + sum b := by
  induction a with
  | nil => simp [sum]
  | cons x a ih => simp only [List.cons_append, sum, ih]; omega

theorem length_filter_not {α : Type} (p : α → Bool) (l : List α) :
    (l.filter (fun x => !p x)).length + (l.filter p).length = l.length := by
  induction l with
  | nil => rfl
  | cons x l ih =>
    simp only [List.filter_cons]
    cases p x <;> simp <;> omega

theorem missing_good {c : Cfg} {f : Nat} {l : List (Nat × Nat)} {b : Buf} (h : Good c f l b) :
    missing c l = c.packets - b.received ∧ b.received ≤ c.packets := by
  have hle := length_le_of_below h.nodup h.below
  have h1 : (List.range c.packets).filter (fun k => decide (k ∉ l.map (·.1))) =
      (List.range c.packets).filter (fun k => !decide (k ∈ b.got)) := by
    apply List.filter_congr
    intro k _
    have : k ∈ l.map (·.1) ↔ k ∈ b.got :=
      ⟨fun hk => by obtain ⟨y, hy, e⟩ := List.mem_map.1 hk; rw [← e]; exact h.all y hy,
        fun hk => List.mem_map.2 ⟨_, h.pay k hk, rfl⟩⟩
    by_cases hk : k ∈ b.got
    · simp only [hk, this.2 hk, not_true_eq_false, decide_false, decide_true, Bool.not_true]
    · have hk' : k ∉ l.map (·.1) := fun e => hk (this.1 e)
      simp only [hk, hk', not_false_eq_true, decide_false, decide_true, Bool.not_false]
  have h2 := length_filter_not (fun k => decide (k ∈ b.got)) (List.range c.packets)
  have h3 : ((List.range c.packets).filter (fun k => decide (k ∈ b.got))).length = b.got.length := by
    apply Nat.le_antisymm
    · refine List.Nodup.length_le_of_subset (List.nodup_range.filter _) ?_
      intro k hk
      exact of_decide_eq_true (List.mem_filter.1 hk).2
    · refine List.Nodup.length_le_of_subset h.nodup ?_
      intro k hk
      exact List.mem_filter.2 ⟨List.mem_range.2 (h.below k hk), decide_eq_true hk⟩
  rw [List.length_range] at h2
  refine ⟨?_, by rw [h.received]; exact hle⟩
  unfold missing
  rw [h1, h.received]
  omega

/-- C34, lost packets, proved part: without duplicates and packets for a frame that has just timed out. -/
theorem C34_lost_partial (c : Cfg) (evs : List Ev) (w : World) (ha : c.accepted = true)
    (hp : Every c (Regular c) (init c) evs) (hr : run c (init c) evs = some w) :
    w.s.lost % 4294967296 = sum (w.timedout.map (fun x => missing c x.2)) % 4294967296 := by
  refine (run_induct c (Regular c) (fun w => Inv c w ∧
    w.s.lost % 4294967296 = sum (w.timedout.map (fun x => missing c x.2)) % 4294967296)
    ?_ evs (init c) w ⟨init_inv c, rfl⟩ hp hr).2
  intro w w' e h hp hs
  have hi := step_inv c ha w w' e h.1 hp hs
  refine ⟨hi, ?_⟩
  cases e with
  | packet p now =>
    obtain ⟨r, hr, e⟩ := Option.map_eq_some_iff.1 hs
    cases e
    obtain ⟨-, a1, -, a2⟩ := packet_counters c w.s p now r hr
    show r.1.lost % 4294967296 = sum (((w.hand r.1 r.2 (rxAdd w.rx p)).timedout).map _) % 4294967296
    rw [hand_timedout, filter_complete _ _ a2, List.append_nil, a1]
    exact h.2
  | tick now =>
    obtain ⟨r, hr, e⟩ := Option.map_eq_some_iff.1 hs
    cases e
    obtain ⟨-, -, -, -, -, a1, a2⟩ := monitorLoop_counters c now _ _ r hr
    obtain ⟨-, g2⟩ := monitorLoop_dat c now w.rx w.s.map w.s r.1 r.2 w.out w.stale h.1.own (fun _ hx => hx) h.1.own.keys
      h.1.dat.1 hr
    show r.1.lost % 4294967296 = sum (((w.hand r.1 r.2 w.rx).timedout).map _) % 4294967296
    rw [hand_timedout, filter_timedout _ _ a2, List.map_append, sum_append, a1, List.map_map]
    have : r.2.map (fun x => (c.packets + 4294967296 - x.buf.received) % 4294967296) =
        r.2.map ((fun x : Ready × List (Nat × Nat) => missing c x.2) ∘ fun q => (q, w.rx q.frame)) := by
      apply List.map_congr_left
      intro x hx
      have := missing_good (g2 x hx).1
      have hb : c.packets ≤ 4195 := by
        unfold Cfg.accepted at ha
        rw [Bool.and_eq_true, decide_eq_true_eq] at ha
        exact ha.1
      show _ = missing c (w.rx x.frame)
      rw [this.1]
      have h3 := this.2
      simp only at h3 ⊢
      omega
    rw [this]
    have h2 := h.2
    omega
  | release b =>
    simp only [step] at hs
    split at hs <;> cases hs <;> exact h.2

theorem select_dropping (c : Cfg) (w : World) (s' : State) (p : Packet) (now : Int) (h : select c w.s p.frame now = some s') :
    s'.dropping = (if w.refuses p then true else if w.accepts p then false else w.s.dropping) ∧
    s'.framesDropped = (if w.refuses p = true ∧ w.s.dropping = false then (w.s.framesDropped + 1) % 4294967296 else w.s.framesDropped) := by
  unfold World.refuses World.accepts
  unfold select at h
  by_cases h1 : p.frame = w.s.seen
  · rw [if_pos h1] at h
    cases h
    simp [h1]
  · rw [if_neg h1] at h
    cases hl : lookup w.s.map p.frame with
    | some b =>
      rw [hl] at h
      simp only at h
      split at h
      · cases h; simp
      · cases h
    | none =>
      rw [hl] at h
      simp only at h
      cases hq : w.s.empty with
      | nil =>
        rw [hq] at h
        cases h
        simp only [initHeader, setBuf, dropFrame]
        cases w.s.dropping <;> simp [h1]
      | cons b q =>
        rw [hq] at h
        simp only at h
        split at h
        · cases h; simp [initHeader, setBuf, openFrame, h1]
        · cases h

/-- Between two refusals that both count, some frame got a buffer. -/
theorem dropped_step (c : Cfg) (w w' : World) (e : Ev) (hs : step c w e = some w') (hl : w.s.dropping = w.last) :
    w'.s.dropping = w'.last ∧ ((∀ p now, e = .packet p now → w.refuses p = false) →
      w'.s.framesDropped = w.s.framesDropped ∧ w'.refused = w.refused) ∧
    ∀ p now, e = .packet p now → w.refuses p = true → w'.last = true ∧ w'.refused = w.refused + 1 ∧
      w'.s.framesDropped = (if w.last = false then (w.s.framesDropped + 1) % 4294967296 else w.s.framesDropped) := by
  cases e with
  | packet p now =>
    obtain ⟨r, hr, e⟩ := Option.map_eq_some_iff.1 hs
    cases e
    unfold packet at hr
    obtain ⟨s1, h1, hr⟩ := Option.bind_eq_some_iff.1 hr
    obtain ⟨s2, h2, hr⟩ := Option.bind_eq_some_iff.1 hr
    obtain ⟨a1, a2⟩ := select_dropping c w s1 p now h1
    obtain ⟨-, -, -, -, -, b1, -, b2, -⟩ := store_frame c s1 s2 p h2
    obtain ⟨-, -, -, -, d1, d2, -⟩ := finish_counters c s2 r hr
    refine ⟨?_, ?_, ?_⟩
    · show r.1.dropping = _
      rw [d2, b1, a1, hl]
    · intro hn
      have hn := hn p now rfl
      constructor
      · show r.1.framesDropped = _
        rw [d1, b2, a2, hn]
        simp
      · show (if w.refuses p then _ else _) = _
        rw [hn]; rfl
    · intro p' now' he hp'
      cases he
      refine ⟨?_, ?_, ?_⟩
      · show (if w.refuses p then true else _) = true
        rw [hp']; rfl
      · show (if w.refuses p then _ else _) = _
        rw [hp']; rfl
      · show r.1.framesDropped = _
        rw [d1, b2, a2, hp', hl]
        simp
  | tick now =>
    obtain ⟨r, hr, e⟩ := Option.map_eq_some_iff.1 hs
    cases e
    obtain ⟨-, -, a1, a2, -⟩ := monitorLoop_counters c now _ _ r hr
    exact ⟨a2.trans hl, fun _ => ⟨a1, rfl⟩, fun p now he => (by cases he)⟩
  | release b =>
    simp only [step] at hs
    split at hs <;> cases hs <;> exact ⟨hl, fun _ => ⟨rfl, rfl⟩, fun p now he => (by cases he)⟩

/-- C34, dropped frames, proved part: exact if some frame got a buffer between any two that were refused one. -/
theorem C34_dropped_partial (c : Cfg) (evs : List Ev) (w : World)
    (hp : Every c (fun w p => w.refuses p = true → w.last = false) (init c) evs) (hr : run c (init c) evs = some w) :
    w.s.framesDropped % 4294967296 = w.refused % 4294967296 := by
  refine (run_induct c _ (fun w => w.s.dropping = w.last ∧ w.s.framesDropped % 4294967296 = w.refused % 4294967296)
    ?_ evs (init c) w ⟨rfl, rfl⟩ hp hr).2
  intro w w' e h hp hs
  obtain ⟨a1, a2, a3⟩ := dropped_step c w w' e hs h.1
  refine ⟨a1, ?_⟩
  cases e with
  | packet p now =>
    cases hre : w.refuses p with
    | true =>
      obtain ⟨-, b2, b3⟩ := a3 p now rfl hre
      rw [if_pos (hp p now rfl hre)] at b3
      rw [b2, b3]
      have := h.2
      omega
    | false =>
      obtain ⟨b1, b2⟩ := a2 (fun p' now' he => by cases he; exact hre)
      rw [b1, b2]; exact h.2
  | tick now => obtain ⟨b1, b2⟩ := a2 (fun p now he => by cases he); rw [b1, b2]; exact h.2
  | release b => obtain ⟨b1, b2⟩ := a2 (fun p now he => by cases he); rw [b1, b2]; exact h.2

/-- Otherwise it counts too few, but some: for fewer than 2^32 refusals. -/
theorem C34_dropped_bounds (c : Cfg) (evs : List Ev) (w : World) (hr : run c (init c) evs = some w)
    (hb : w.refused < 4294967296) :
    w.s.framesDropped ≤ w.refused ∧ (0 < w.refused → 0 < w.s.framesDropped) := by
  refine (run_induct c (fun _ _ => True) (fun w => w.s.dropping = w.last ∧ (w.refused < 4294967296 →
    w.s.framesDropped ≤ w.refused ∧ (0 < w.refused → 0 < w.s.framesDropped) ∧ (w.last = true → 0 < w.refused)))
    ?_ evs (init c) w ⟨rfl, fun _ => ⟨Nat.le_refl _, id, fun h => (by cases h)⟩⟩ (every_true c evs _) hr).2 hb |>.imp id And.left
  intro w w' e h _ hs
  obtain ⟨a1, a2, a3⟩ := dropped_step c w w' e hs h.1
  refine ⟨a1, fun hb => ?_⟩
  have other : (∀ p now, e = .packet p now → w.refuses p = false) → (w'.last = true → w.last = true) →
      w'.s.framesDropped ≤ w'.refused ∧ (0 < w'.refused → 0 < w'.s.framesDropped) ∧ (w'.last = true → 0 < w'.refused) := by
    intro hn hla
    obtain ⟨b1, b2⟩ := a2 hn
    rw [b2] at hb
    obtain ⟨c1, c2, c3⟩ := h.2 hb
    rw [b1, b2]
    exact ⟨c1, c2, fun hh => c3 (hla hh)⟩
  cases e with
  | packet p now =>
    cases hre : w.refuses p with
    | true =>
      obtain ⟨b1, b2, b3⟩ := a3 p now rfl hre
      obtain ⟨c1, c2, c3⟩ := h.2 (by omega)
      rw [b2, b3]
      cases hl : w.last with
      | true =>
        have := c2 (c3 hl)
        simp only [Bool.true_eq_false, if_false]
        omega
      | false =>
        rw [if_pos rfl]
        omega
    | false =>
      refine other (fun p' now' he => by cases he; exact hre) ?_
      obtain ⟨r, hr, e⟩ := Option.map_eq_some_iff.1 hs
      cases e
      show (if w.refuses p then true else if w.accepts p then false else w.last) = true → _
      rw [hre]
      cases w.accepts p <;> simp
  | tick now =>
    refine other (fun p now he => by cases he) ?_
    obtain ⟨r, hr, e⟩ := Option.map_eq_some_iff.1 hs
    cases e
    exact id
  | release b =>
    refine other (fun p now he => by cases he) ?_
    simp only [step] at hs
    split at hs <;> cases hs <;> exact id

/-- C34 is false of the code: two frames refused in succession count once. -/
theorem C34_violated : ¬ C34_statement := by
  intro h
  have h1 : (run small (init small) [.packet ⟨0, 0, 7⟩ 0, .packet ⟨1, 0, 7⟩ 1, .packet ⟨2, 0, 7⟩ 2]).map
      (fun w => (w.s.framesDropped, w.refused)) = some (1, 2) := by decide +kernel
  cases hr : run small (init small) [.packet ⟨0, 0, 7⟩ 0, .packet ⟨1, 0, 7⟩ 1, .packet ⟨2, 0, 7⟩ 2] with
  | none => rw [hr] at h1; cases h1
  | some w =>
    rw [hr] at h1
    have h2 : (w.s.framesDropped, w.refused) = (1, 2) := Option.some.inj h1
    have := (h small _ w (by decide) hr).2.2.2
    rw [(Prod.mk.inj h2).1, (Prod.mk.inj h2).2] at this
    exact absurd this (by decide)

/-- Three packets per frame, one buffer. -/
def three : Cfg := { packets := 3, size := 10, buffers := 1, timeout := 1000 }

/-- Lost packets are also wrong: a duplicate hides one of the two missing packets. -/
theorem C34_violated_lost : (run three (init three) [.packet ⟨0, 0, 7⟩ 0, .packet ⟨0, 0, 7⟩ 1, .tick 2000000000]).map
    (fun w => (w.s.lost, sum (w.timedout.map (fun x => missing three x.2)))) = some (1, 2) := by decide +kernel

/-- And wildly so: while frames are dropped a mapped frame is not handed on when complete, and a further duplicate
makes the 32-bit difference wrap. -/
theorem C34_violated_wrap : (run small (init small) [.packet ⟨0, 0, 7⟩ 0, .packet ⟨1, 0, 7⟩ 1, .packet ⟨0, 1, 7⟩ 2,
      .packet ⟨0, 1, 7⟩ 3, .tick 2000000000]).map
    (fun w => (w.s.lost, sum (w.timedout.map (fun x => missing small x.2)))) = some (4294967295, 0) := by decide +kernel

/-- Packets of a frame that has a buffer are counted as dropped (although they are stored) if another frame was
refused one since. -/
theorem C34_stored_counted_dropped :
    (run small (init small) [.packet ⟨0, 0, 7⟩ 0, .packet ⟨1, 0, 7⟩ 1, .packet ⟨0, 1, 7⟩ 2]).map
      (fun w => (w.s.received, w.s.dropped, (w.s.bufs (.shared 0)).got)) = some (1, 2, [1, 0]) := by decide +kernel

/-- Non-vacuity: refusals with an accepted frame in between; frames timing out with packets missing. -/
example : (run small (init small) [.packet ⟨0, 0, 7⟩ 0, .packet ⟨1, 0, 7⟩ 1, .tick 2000000000, .release 0,
      .packet ⟨2, 1, 7⟩ 2000000001, .packet ⟨3, 0, 7⟩ 2000000002, .tick 4000000000]).map
    (fun w => (w.s.lost, w.s.framesDropped, w.refused, w.s.framesTimedout, w.count)) = some (2, 2, 2, 2, 4) := by
  decide +kernel

example : Every small (Regular small) (init small) [.packet ⟨0, 0, 7⟩ 0, .packet ⟨1, 0, 7⟩ 1, .tick 2000000000, .release 0,
      .packet ⟨2, 1, 7⟩ 2000000001, .packet ⟨3, 0, 7⟩ 2000000002, .tick 4000000000] :=
  every_of_everyB _ _ _ (regular_of_bool _) _ _ (by decide +kernel)

end Verif.Decoder
