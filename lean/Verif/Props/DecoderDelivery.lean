import Verif.Props.DecoderData
/-! Property C83: with enough buffers and without timeouts, every frame all of whose packets arrive is handed on. -/
namespace Verif.Decoder

namespace Spec

/-- The packets of a history. -/
def packetsOf : List Ev → List Packet
  | [] => []
  | .packet p _ :: es => p :: packetsOf es
  | _ :: es => packetsOf es

/-- No packet arrives twice. -/
def Distinct (ps : List Packet) : Prop := (ps.map (fun p => (p.frame, p.num))).Nodup

/-- All packets of frame `f` have arrived. -/
def Whole (c : Cfg) (ps : List Packet) (f : Nat) : Prop := ∀ k, k < c.packets → ∃ p ∈ ps, p.frame = f ∧ p.num = k

end Spec
open Spec

/-- The packets of one frame, newest first if `ps` is. -/
def ofFrame (f : Nat) (ps : List Packet) : List (Nat × Nat) := (ps.filter (fun p => decide (p.frame = f))).map (fun p => (p.num, p.pay))

theorem select_effect (c : Cfg) (s : State) (f : Nat) (now : Int) (out : List Nat) (h : Own c s out []) (hd : s.dropping = false)
    (hf : f ≠ noFrame) (hroom : lookup s.map f = none → s.empty ≠ []) :
    ∃ s' b, select c s f now = some s' ∧ s'.seen = f ∧ s'.cur = some (.shared b) ∧ s'.bufId = b ∧ s'.dropping = false ∧
      lookup s'.map f = some b ∧ ∀ g, g ≠ f → lookup s'.map g = lookup s.map g := by
  have ids : ∀ b, b ∈ s.empty ∨ (∃ g, lookup s.map g = some b) → b < c.buffers := by
    intro b hb
    have : b ∈ s.empty ++ s.map.map (·.2) ++ out := by
      simp only [List.mem_append]
      rcases hb with hb | ⟨g, hb⟩
      · exact Or.inl (Or.inl hb)
      · exact Or.inl (Or.inr (List.mem_map_of_mem (f := (·.2)) (lookup_mem hb)))
    exact List.mem_range.1 (h.perm.mem_iff.1 this)
  unfold select
  by_cases he : f = s.seen
  · rw [if_pos he]
    cases hl : lookup s.map s.seen with
    | some b =>
      obtain ⟨h1, h2⟩ := h.mapped b hl
      exact ⟨s, b, rfl, he.symm, h1, h2, hd, by rw [he]; exact hl, fun g _ => rfl⟩
    | none =>
      rcases h.unmapped hl with h1 | h1 | h1
      · exact absurd (he.trans h1) hf
      · rw [h.scratch h1] at hd; cases hd
      · cases h1
  · rw [if_neg he]
    cases hl : lookup s.map f with
    | some b =>
      simp only
      rw [if_pos (ids b (Or.inr ⟨f, hl⟩))]
      exact ⟨_, b, rfl, rfl, rfl, rfl, hd, hl, fun g _ => rfl⟩
    | none =>
      simp only
      cases hq : s.empty with
      | nil => exact absurd hq (hroom hl)
      | cons b q =>
        simp only
        rw [if_pos (ids b (Or.inl (by rw [hq]; simp)))]
        refine ⟨_, b, rfl, rfl, rfl, rfl, rfl, ?_, ?_⟩
        · show lookup ((f, b) :: s.map) f = some b
          simp [lookup]
        · intro g hg
          show lookup ((f, b) :: s.map) g = lookup s.map g
          simp only [lookup]
          rw [if_neg (Ne.symm hg)]

theorem good_length {c : Cfg} {f : Nat} {l : List (Nat × Nat)} {b : Buf} (h : Good c f l b) (hn : (l.map (·.1)).Nodup) :
    b.received = l.length := by
  have hp : b.got.Perm (l.map (·.1)) := by
    refine (List.perm_ext_iff_of_nodup h.nodup hn).2 (fun k => ⟨fun hk => ?_, fun hk => ?_⟩)
    · exact List.mem_map.2 ⟨_, h.pay k hk, rfl⟩
    · obtain ⟨y, hy, e⟩ := List.mem_map.1 hk
      rw [← e]
      exact h.all y hy
  rw [h.received, hp.length_eq, List.length_map]

theorem accepted_packets {c : Cfg} (ha : c.accepted = true) : c.packets ≤ maxPackets := by
  unfold Cfg.accepted at ha
  rw [Bool.and_eq_true, decide_eq_true_eq] at ha
  exact ha.1

/-- What a new packet does when there is room. -/
theorem packet_effect (c : Cfg) (s : State) (p : Packet) (now : Int) (out : List Nat) (rx : Nat → List (Nat × Nat))
    (ha : c.accepted = true) (h : Own c s out []) (hdat : Dat c s rx) (hd : s.dropping = false)
    (hf : p.frame ≠ noFrame) (hn : p.num < c.packets) (hroom : lookup s.map p.frame = none → s.empty ≠ [])
    (hnd : ((rx p.frame).map (·.1)).Nodup) (hlen : (rx p.frame).length < c.packets) :
    ∃ s' rs, packet c s p now = some (s', rs) ∧ s'.dropping = false ∧
      (∀ g, g ≠ p.frame → lookup s'.map g = lookup s.map g) ∧
      (((rx p.frame).length + 1 ≠ c.packets ∧ rs = [] ∧ lookup s'.map p.frame ≠ none) ∨
       ((rx p.frame).length + 1 = c.packets ∧ lookup s'.map p.frame = none ∧
          ∃ b buf, rs = [⟨b, p.frame, buf⟩] ∧ buf.state = .complete)) := by
  obtain ⟨s1, b, h1, a1, a2, a3, a4, a5, a6⟩ := select_effect c s p.frame now out h hd hf hroom
  have hd1 := select_dat c s s1 p.frame now out [] rx h hdat h1
  have hg := hd1.1 _ b a5
  have hlr := good_length hg hnd
  have hpk := accepted_packets ha
  have hst : store c s1 p = some (countPacket (setBuf s1 (.shared b) (stored (s1.bufs (.shared b)) p))) := by
    unfold store
    rw [a2]
    simp only
    rw [if_neg (by
      rw [fits_of_lt c _ p.num ha hn]
      rintro (h2 | h2)
      · omega
      · cases h2)]
  obtain ⟨-, b2, b3, b4, b5, b6, -⟩ := store_frame c s1 _ p hst
  generalize hs2 : countPacket (setBuf s1 (.shared b) (stored (s1.bufs (.shared b)) p)) = s2 at hst b2 b3 b4 b5 b6
  have hbuf : s2.bufs (.shared b) = stored (s1.bufs (.shared b)) p := by
    rw [← hs2, countPacket_bufs]; simp [setBuf]
  have hrec : (counted (s2.bufs (.shared b))).received = (rx p.frame).length + 1 := by
    rw [hbuf]
    show ((s1.bufs (.shared b)).received + 1) % 4294967296 = _
    rw [hlr]
    exact Nat.mod_eq_of_lt (by unfold maxPackets at hpk; omega)
  have hfr : (s2.bufs (.shared b)).frame = p.frame := by rw [hbuf]; exact hg.frame
  have hpkt : packet c s p now = finish c s2 := by
    unfold packet; rw [h1]; simp only [Option.bind_some]; rw [hst]; rfl
  rw [hpkt]
  unfold finish
  rw [b4, a2]
  simp only
  rw [hrec, b6, a4]
  by_cases he : (rx p.frame).length + 1 = c.packets
  · rw [if_pos he]
    simp only [Bool.false_eq_true, if_false]
    refine ⟨_, _, rfl, ?_, ?_, Or.inr ⟨he, ?_, s2.bufId, completed (counted (s2.bufs (.shared b))), ?_, rfl⟩⟩
    · show s2.dropping = false
      rw [b6]; exact a4
    · intro g hg
      show lookup (erase s2.map s2.seen) g = _
      rw [b3, a1, lookup_erase_ne hg, b2, a6 g hg]
    · show lookup (erase s2.map s2.seen) p.frame = none
      rw [b3, a1, lookup_erase_self]
    · show [(⟨s2.bufId, (s2.bufs (.shared b)).frame, _⟩ : Ready)] = _
      rw [hfr]
  · rw [if_neg he]
    refine ⟨_, _, rfl, ?_, ?_, Or.inl ⟨he, rfl, ?_⟩⟩
    · show s2.dropping = false
      rw [b6]; exact a4
    · intro g hg
      show lookup s2.map g = _
      rw [b2, a6 g hg]
    · show lookup s2.map p.frame ≠ none
      rw [b2, a5]
      exact fun e => (by cases e)

/-- The state after the packets `ps` (newest first) of frames in `S`. -/
structure Deliv (c : Cfg) (S : List Nat) (w : World) (ps : List Packet) : Prop where
  inv : Inv c w
  stale : w.stale = []
  drop : w.s.dropping = false
  live : ∀ f b, lookup w.s.map f = some b → f ∈ S ∧ w.rx f = ofFrame f ps ∧ (ofFrame f ps).length < c.packets
  gone : ∀ f, lookup w.s.map f = none → ofFrame f ps = [] ∨ f ∈ w.log.map (·.1.frame)
  log : ∀ x ∈ w.log, x.1.frame ∈ S ∧ lookup w.s.map x.1.frame = none ∧ x.1.buf.state = .complete ∧
    x.2 = ofFrame x.1.frame ps ∧ (ofFrame x.1.frame ps).length = c.packets
  once : (w.log.map (·.1.frame)).Nodup
  out : w.out.length ≤ w.log.length

theorem deliv_init (c : Cfg) (S : List Nat) : Deliv c S (init c) [] :=
  ⟨init_inv c, rfl, rfl, fun _ _ h => (by cases h), fun _ _ => Or.inl rfl, fun x hx => (by cases hx), List.nodup_nil, Nat.le_refl _⟩

theorem ofFrame_cons_self (p : Packet) (ps : List Packet) : ofFrame p.frame (p :: ps) = (p.num, p.pay) :: ofFrame p.frame ps := by
  simp [ofFrame]

theorem ofFrame_cons_ne (p : Packet) (ps : List Packet) {f : Nat} (h : f ≠ p.frame) : ofFrame f (p :: ps) = ofFrame f ps := by
  simp [ofFrame, Ne.symm h]

theorem mem_ofFrame {f k y : Nat} {ps : List Packet} : (k, y) ∈ ofFrame f ps ↔ (⟨f, k, y⟩ : Packet) ∈ ps := by
  simp only [ofFrame, List.mem_map, List.mem_filter, decide_eq_true_eq, Prod.mk.injEq]
  constructor
  · rintro ⟨p, ⟨hp, e1⟩, e2, e3⟩
    obtain ⟨a, b, d⟩ := p
    simp only at e1 e2 e3
    subst e1; subst e2; subst e3
    exact hp
  · exact fun hp => ⟨_, ⟨hp, rfl⟩, rfl, rfl⟩

theorem ofFrame_keys {f k : Nat} {ps : List Packet} : k ∈ (ofFrame f ps).map (·.1) ↔ (f, k) ∈ ps.map (fun p => (p.frame, p.num)) := by
  constructor
  · intro h
    obtain ⟨⟨a, y⟩, hx, e⟩ := List.mem_map.1 h
    simp only at e
    subst e
    exact List.mem_map.2 ⟨_, mem_ofFrame.1 hx, rfl⟩
  · intro h
    obtain ⟨⟨a, b, y⟩, hx, e⟩ := List.mem_map.1 h
    simp only [Prod.mk.injEq] at e
    obtain ⟨rfl, rfl⟩ := e
    exact List.mem_map.2 ⟨(b, y), mem_ofFrame.2 hx, rfl⟩

theorem ofFrame_nodup {ps : List Packet} (f : Nat) (h : Distinct ps) : ((ofFrame f ps).map (·.1)).Nodup := by
  induction ps with
  | nil => exact List.nodup_nil
  | cons p ps ih =>
    have h' := List.nodup_cons.1 h
    by_cases hf : f = p.frame
    · subst hf
      rw [ofFrame_cons_self, List.map_cons, List.nodup_cons]
      exact ⟨fun hk => h'.1 (ofFrame_keys.1 hk), ih h'.2⟩
    · rw [ofFrame_cons_ne p ps hf]
      exact ih h'.2

theorem ofFrame_below {c : Cfg} {ps : List Packet} (f : Nat) (h : ∀ p ∈ ps, p.num < c.packets) :
    ∀ k ∈ (ofFrame f ps).map (·.1), k < c.packets := by
  intro k hk
  obtain ⟨x, hx, e⟩ := List.mem_map.1 hk
  rw [← e]
  exact h _ (mem_ofFrame.1 hx)

/-- A frame one of whose packets is still to come is not complete. -/
theorem ofFrame_lt {c : Cfg} {p : Packet} {ps : List Packet} (hd : Distinct (p :: ps)) (hn : ∀ q ∈ p :: ps, q.num < c.packets) :
    (ofFrame p.frame ps).length < c.packets := by
  have h := length_le_of_below (n := c.packets) (ofFrame_nodup p.frame hd) (ofFrame_below p.frame hn)
  rw [ofFrame_cons_self, List.map_cons, List.length_cons, List.length_map] at h
  omega

theorem deliv_room {c : Cfg} {S : List Nat} {w : World} {ps : List Packet} {p : Packet} (h : Deliv c S w ps)
    (hS : S.length ≤ c.buffers) (hp : p.frame ∈ S) (hl : lookup w.s.map p.frame = none)
    (hlog : p.frame ∉ w.log.map (·.1.frame)) : w.s.empty ≠ [] := by
  intro he
  have h1 := h.inv.own.perm.length_eq
  rw [he] at h1
  simp only [List.length_append, List.length_nil, List.length_map, List.length_range] at h1
  have h2 : (p.frame :: (w.s.map.map (·.1) ++ w.log.map (·.1.frame))).Nodup := by
    refine List.nodup_cons.2 ⟨?_, List.nodup_append.2 ⟨h.inv.own.keys, h.once, ?_⟩⟩
    · rw [List.mem_append]
      rintro (hk | hk)
      · exact lookup_none.1 hl hk
      · exact hlog hk
    · intro a ha b hb e
      subst e
      obtain ⟨x, hx, e⟩ := List.mem_map.1 hb
      have := (h.log x hx).2.1
      rw [e] at this
      exact lookup_none.1 this ha
  have h3 : (p.frame :: (w.s.map.map (·.1) ++ w.log.map (·.1.frame))) ⊆ S := by
    intro a ha
    rcases List.mem_cons.1 ha with rfl | ha
    · exact hp
    · rcases List.mem_append.1 ha with ha | ha
      · obtain ⟨x, hx, e⟩ := List.mem_map.1 ha
        have := mem_lookup h.inv.own.keys (f := x.1) (b := x.2) hx
        rw [← e]
        exact (h.live _ _ this).1
      · obtain ⟨x, hx, e⟩ := List.mem_map.1 ha
        rw [← e]
        exact (h.log x hx).1
  have h4 := h2.length_le_of_subset h3
  simp only [List.length_cons, List.length_append, List.length_map] at h4
  have := h.out
  omega

theorem deliv_packet {c : Cfg} {S : List Nat} {w : World} {ps : List Packet} {p : Packet} (now : Int) (ha : c.accepted = true)
    (hS : S.length ≤ c.buffers) (h : Deliv c S w ps) (hp : p.frame ∈ S) (hf : p.frame ≠ noFrame)
    (hd : Distinct (p :: ps)) (hn : ∀ q ∈ p :: ps, q.num < c.packets) :
    ∃ w', step c w (.packet p now) = some w' ∧ Deliv c S w' (p :: ps) := by
  have hlt := ofFrame_lt hd hn
  have hnew : p.frame ∉ w.log.map (·.1.frame) := by
    intro hm
    obtain ⟨x, hx, e⟩ := List.mem_map.1 hm
    have := (h.log x hx).2.2.2.2
    rw [e] at this
    omega
  have hrx : w.rx p.frame = ofFrame p.frame ps := by
    cases hl : lookup w.s.map p.frame with
    | some b => exact (h.live _ b hl).2.1
    | none =>
      rw [h.inv.dat.2 _ hl]
      rcases h.gone _ hl with e | e
      · exact e.symm
      · exact absurd e hnew
  have hnum : p.num < c.packets := hn p (List.mem_cons_self)
  have hnd : Distinct ps := (List.nodup_cons.1 hd).2
  have hfresh : p.num ∉ (w.rx p.frame).map (·.1) := by
    rw [hrx]
    exact fun hk => (List.nodup_cons.1 hd).1 (ofFrame_keys.1 hk)
  have hown : Own c w.s w.out [] := by have := h.inv.own; rw [h.stale] at this; exact this
  obtain ⟨s', rs, he, e1, e2, e3⟩ := packet_effect c w.s p now w.out w.rx ha hown h.inv.dat h.drop hf hnum
    (fun hl => deliv_room h hS hp hl hnew) (by rw [hrx]; exact ofFrame_nodup _ hnd) (by rw [hrx]; exact hlt)
  rw [hrx] at e3
  have hw : step c w (.packet p now) = some { w.hand s' rs (rxAdd w.rx p) with
      stale := [], count := w.count + 1, refused := if w.refuses p then w.refused + 1 else w.refused,
      last := if w.refuses p then true else if w.accepts p then false else w.last,
      began := fun f => if f = p.frame ∧ w.rx f = [] then now else w.began f } := by
    simp only [step]; rw [he]; rfl
  refine ⟨_, hw, ?_⟩
  have hinv := step_inv c ha w _ (.packet p now) h.inv (by
    intro q t e
    cases e
    exact ⟨⟨by rw [h.stale]; exact List.not_mem_nil, hf⟩, hnum, hfresh⟩) hw
  have hadd : ∀ f, f ≠ p.frame → rxAdd w.rx p f = w.rx f := fun f hf => if_neg hf
  have hself : rxAdd w.rx p p.frame = ofFrame p.frame (p :: ps) := by
    rw [ofFrame_cons_self, ← hrx]; exact if_pos rfl
  have hself' : ∀ x ∈ w.log, x.1.frame ≠ p.frame := fun x hx e => hnew (List.mem_map.2 ⟨x, hx, e⟩)
  rcases e3 with ⟨c1, c2, c3⟩ | ⟨c1, c2, b, buf, c3, c4⟩
  · subst c2
    refine ⟨hinv, rfl, e1, ?_, ?_, ?_, ?_, ?_⟩
    · intro f b hb
      replace hb : lookup s'.map f = some b := hb
      show f ∈ S ∧ (if lookup s'.map f = none then [] else rxAdd w.rx p f) = _ ∧ _
      rw [if_neg (by rw [hb]; exact fun e => (by cases e))]
      by_cases hff : f = p.frame
      · subst hff
        refine ⟨hp, hself, ?_⟩
        rw [ofFrame_cons_self, List.length_cons]
        omega
      · rw [e2 f hff] at hb
        rw [hadd f hff, ofFrame_cons_ne p ps hff]
        exact h.live f b hb
    · intro f hl
      replace hl : lookup s'.map f = none := hl
      by_cases hff : f = p.frame
      · subst hff; exact absurd hl c3
      · rw [e2 f hff] at hl
        rw [ofFrame_cons_ne p ps hff]
        rcases h.gone f hl with h1 | h1
        · exact Or.inl h1
        · right
          show f ∈ (w.log ++ []).map (fun x => (x : Ready × List (Nat × Nat)).1.frame)
          rw [List.append_nil]; exact h1
    · intro x hx
      replace hx : x ∈ w.log ++ [] := hx
      rw [List.append_nil] at hx
      obtain ⟨g1, g2, g3, g4, g5⟩ := h.log x hx
      have hne := hself' x hx
      rw [ofFrame_cons_ne p ps hne]
      exact ⟨g1, (e2 _ hne).trans g2, g3, g4, g5⟩
    · show ((w.log ++ []).map (fun x => (x : Ready × List (Nat × Nat)).1.frame)).Nodup
      rw [List.append_nil]; exact h.once
    · show (w.out ++ []).length ≤ (w.log ++ []).length
      rw [List.append_nil, List.append_nil]; exact h.out
  · subst c3
    refine ⟨hinv, rfl, e1, ?_, ?_, ?_, ?_, ?_⟩
    · intro f b hb
      replace hb : lookup s'.map f = some b := hb
      show f ∈ S ∧ (if lookup s'.map f = none then [] else rxAdd w.rx p f) = _ ∧ _
      rw [if_neg (by rw [hb]; exact fun e => (by cases e))]
      have hff : f ≠ p.frame := by
        rintro rfl
        rw [c2] at hb; cases hb
      rw [e2 f hff] at hb
      rw [hadd f hff, ofFrame_cons_ne p ps hff]
      exact h.live f b hb
    · intro f hl
      replace hl : lookup s'.map f = none := hl
      have hm : ∀ g, g ∈ w.log.map (·.1.frame) ∨ g = p.frame →
          g ∈ (w.log ++ [((⟨b, p.frame, buf⟩ : Ready), rxAdd w.rx p p.frame)]).map (·.1.frame) := by
        intro g hg
        rw [List.map_append, List.mem_append]
        rcases hg with hg | hg
        · exact Or.inl hg
        · right; rw [hg]; simp
      by_cases hff : f = p.frame
      · exact Or.inr (hm f (Or.inr hff))
      · rw [e2 f hff] at hl
        rw [ofFrame_cons_ne p ps hff]
        rcases h.gone f hl with h1 | h1
        · exact Or.inl h1
        · exact Or.inr (hm f (Or.inl h1))
    · intro x hx
      replace hx : x ∈ w.log ++ [((⟨b, p.frame, buf⟩ : Ready), rxAdd w.rx p p.frame)] := hx
      rcases List.mem_append.1 hx with hx | hx
      · obtain ⟨g1, g2, g3, g4, g5⟩ := h.log x hx
        have hne := hself' x hx
        rw [ofFrame_cons_ne p ps hne]
        exact ⟨g1, (e2 _ hne).trans g2, g3, g4, g5⟩
      · rw [List.mem_singleton] at hx
        subst hx
        refine ⟨hp, c2, c4, hself, ?_⟩
        show (ofFrame p.frame (p :: ps)).length = c.packets
        rw [ofFrame_cons_self, List.length_cons]; exact c1
    · show ((w.log ++ [((⟨b, p.frame, buf⟩ : Ready), rxAdd w.rx p p.frame)]).map (·.1.frame)).Nodup
      rw [List.map_append, List.nodup_append]
      refine ⟨h.once, by simp, ?_⟩
      intro a ha b' hb' e
      simp only [List.map_cons, List.map_nil, List.mem_singleton] at hb'
      rw [e, hb'] at ha
      exact hnew ha
    · show (w.out ++ [b]).length ≤ (w.log ++ [_]).length
      rw [List.length_append, List.length_append]
      have := h.out
      simp only [List.length_cons, List.length_nil]
      omega

theorem deliv_release {c : Cfg} {S : List Nat} {w : World} {ps : List Packet} (b : Nat) (ha : c.accepted = true)
    (h : Deliv c S w ps) : ∃ w', step c w (.release b) = some w' ∧ Deliv c S w' ps := by
  by_cases hb : b ∈ w.out
  · have hw : step c w (.release b) = some { w with s := push w.s b, out := w.out.erase b } := if_pos hb
    refine ⟨_, hw, step_inv c ha w _ _ h.inv (fun p now e => by cases e) hw, h.stale, h.drop, h.live, h.gone, h.log, h.once, ?_⟩
    have := List.length_erase_of_mem hb
    have := h.out
    show (w.out.erase b).length ≤ w.log.length
    omega
  · exact ⟨w, if_neg hb, h⟩

theorem deliv_run {c : Cfg} {S : List Nat} (ha : c.accepted = true) (hS : S.length ≤ c.buffers) (evs : List Ev) :
    ∀ (w : World) (ps : List Packet), Deliv c S w ps → (∀ now, Ev.tick now ∉ evs) →
    (∀ p ∈ packetsOf evs, p.frame ∈ S ∧ p.frame ≠ noFrame) → Distinct ((packetsOf evs).reverse ++ ps) →
    (∀ p ∈ (packetsOf evs).reverse ++ ps, p.num < c.packets) →
    ∃ w', run c w evs = some w' ∧ Deliv c S w' ((packetsOf evs).reverse ++ ps) := by
  induction evs with
  | nil => intro w ps h _ _ _ _; exact ⟨w, rfl, h⟩
  | cons e evs ih =>
    intro w ps h ht hp hd hn
    have ht' : ∀ now, Ev.tick now ∉ evs := fun now hm => ht now (List.mem_cons_of_mem _ hm)
    cases e with
    | packet p now =>
      simp only [packetsOf, List.reverse_cons, List.append_assoc, List.singleton_append] at hp hd hn ⊢
      have hd1 : Distinct (p :: ps) := by
        unfold Distinct at hd ⊢
        rw [List.map_append, List.nodup_append] at hd
        exact hd.2.1
      have hpf := hp p (List.mem_cons_self)
      obtain ⟨w1, h1, h2⟩ := deliv_packet now ha hS h hpf.1 hpf.2 hd1
        (fun q hq => hn q (List.mem_append_right _ hq))
      obtain ⟨w2, h3, h4⟩ := ih w1 (p :: ps) h2 ht' (fun q hq => hp q (List.mem_cons_of_mem _ hq)) hd hn
      exact ⟨w2, by simp only [run]; rw [h1]; exact h3, h4⟩
    | tick now => exact absurd (List.mem_cons_self) (ht now)
    | release b =>
      obtain ⟨w1, h1, h2⟩ := deliv_release b ha h
      obtain ⟨w2, h3, h4⟩ := ih w1 ps h2 ht' hp hd hn
      exact ⟨w2, by simp only [run]; rw [h1]; exact h3, h4⟩

/-- C83: whatever the order of the packets of the frames `S` and the times, and whichever buffers come back when: if no
packet arrives twice, no frame times out and there are as many buffers as frames, then each frame all of whose
packets have arrived has been handed on, once, as complete, with its own payloads; and nothing else has been. -/
theorem C83 (c : Cfg) (S : List Nat) (evs : List Ev) (ha : c.accepted = true) (hP : 0 < c.packets) (hS : S.length ≤ c.buffers)
    (ht : ∀ now, Ev.tick now ∉ evs)
    (hp : ∀ p ∈ packetsOf evs, p.frame ∈ S ∧ p.frame ≠ 4294967295 ∧ p.num < c.packets) (hd : Distinct (packetsOf evs)) :
    ∃ w, run c (init c) evs = some w ∧ (w.log.map (·.1.frame)).Nodup ∧
      (∀ f, f ∈ w.log.map (·.1.frame) ↔ Whole c (packetsOf evs) f) ∧
      ∀ x ∈ w.log, x.1.buf.state = .complete ∧ x.1.buf.frame = x.1.frame ∧
        ∀ k, k < c.packets → (⟨x.1.frame, k, x.1.buf.pay k⟩ : Packet) ∈ packetsOf evs := by
  have hd' : Distinct ((packetsOf evs).reverse ++ []) := by
    unfold Distinct at hd ⊢
    rw [List.append_nil, List.map_reverse]
    exact (List.reverse_perm _).nodup_iff.2 hd
  obtain ⟨w, h1, h2⟩ := deliv_run ha hS evs (init c) [] (deliv_init c S) ht (fun p hq => ⟨(hp p hq).1, (hp p hq).2.1⟩) hd'
    (fun p hq => (hp p (by simpa using hq)).2.2)
  rw [List.append_nil] at h2 hd'
  have hmem : ∀ x ∈ w.log, ∀ k, k < c.packets → (⟨x.1.frame, k, x.1.buf.pay k⟩ : Packet) ∈ packetsOf evs := by
    intro x hx k hk
    obtain ⟨g, hc, -⟩ := h2.inv.log x hx
    obtain ⟨-, -, l3, l4, -⟩ := h2.log x hx
    have h3 := g.pay k (all_of_length g.nodup g.below (by rw [← g.received, hc l3]) k hk)
    rw [l4] at h3
    exact List.mem_reverse.1 (mem_ofFrame.1 h3)
  refine ⟨w, h1, h2.once, fun f => ⟨fun hf => ?_, fun hf => ?_⟩, fun x hx => ⟨(h2.log x hx).2.2.1, (h2.inv.log x hx).1.frame, hmem x hx⟩⟩
  · obtain ⟨x, hx, e⟩ := List.mem_map.1 hf
    intro k hk
    exact ⟨_, hmem x hx k hk, e, rfl⟩
  · cases hl : lookup w.s.map f with
    | none =>
      rcases h2.gone f hl with e | e
      · obtain ⟨p, hpm, e1, e2⟩ := hf 0 hP
        have : (p.num, p.pay) ∈ ofFrame f (packetsOf evs).reverse := by
          subst e1
          exact mem_ofFrame.2 (List.mem_reverse.2 hpm)
        rw [e] at this
        cases this
      · exact e
    | some b =>
      exfalso
      have h3 := (h2.live f b hl).2.2
      have h4 : List.range c.packets ⊆ (ofFrame f (packetsOf evs).reverse).map (·.1) := by
        intro k hk
        obtain ⟨p, hpm, e1, e2⟩ := hf k (List.mem_range.1 hk)
        refine ofFrame_keys.2 (List.mem_map.2 ⟨p, List.mem_reverse.2 hpm, ?_⟩)
        rw [e1, e2]
      have h5 := List.nodup_range.length_le_of_subset h4
      rw [List.length_range, List.length_map] at h5
      omega

/-- Non-vacuity: three frames of three packets, mixed up, of which one is not complete. -/
def mixed : List Ev :=
  [.packet ⟨5, 2, 52⟩ 0, .packet ⟨4, 0, 40⟩ 1, .packet ⟨5, 0, 50⟩ 2, .packet ⟨6, 1, 61⟩ 3, .packet ⟨4, 2, 42⟩ 4,
    .packet ⟨5, 1, 51⟩ 5, .release 0, .packet ⟨6, 0, 60⟩ 6, .packet ⟨4, 1, 41⟩ 7]

def wide : Cfg := { packets := 3, size := 10, buffers := 3, timeout := 1000 }

example : wide.accepted = true ∧ [4, 5, 6].length ≤ wide.buffers ∧
    (∀ p ∈ packetsOf mixed, p.frame ∈ [4, 5, 6] ∧ p.frame ≠ 4294967295 ∧ p.num < wide.packets) ∧
    ((packetsOf mixed).map (fun p => (p.frame, p.num))).Nodup := by decide +kernel

example : (run wide (init wide) mixed).map (fun w => w.log.map (fun x =>
    (x.1.frame, x.1.buf.state, (List.range 3).map x.1.buf.pay))) =
    some [(5, .complete, [50, 51, 52]), (4, .complete, [40, 41, 42])] := by decide +kernel

end Verif.Decoder
