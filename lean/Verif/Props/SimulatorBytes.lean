import Verif.Props.Simulator
import Verif.Props.Datagram
/-! Property C44 for bytes: the datagrams of the simulator, received in any order, give the bytes of the image in the frame buffers. -/
namespace Verif.SimulatorBytes
open Verif.Decoder (Cfg Inv step_inv accepted_packets maxPackets Deliv deliv_init deliv_packet deliv_release init_inv noFrame)
open Verif.Decoder.Spec (Ev World Every Regular packetsOf Distinct)
open Verif.Simulator (Raw Frame create image GoodFrame GoodPacket createFrom_spec parts_pos image_length)
open Verif.Simulator.Spec (parts part)
open Verif.Datagram
open Verif.Datagram.Spec

/-! ## Regular histories -/

theorem deliv_regular {c : Cfg} {S : List Nat} {w : World} {ps : List Decoder.Packet} {p : Decoder.Packet} (h : Deliv c S w ps)
    (hf : p.frame ≠ noFrame) (hd : Distinct (p :: ps)) (hn : ∀ q ∈ p :: ps, q.num < c.packets) : Regular c w p := by
  have hlt := Decoder.ofFrame_lt hd hn
  have hnew : p.frame ∉ w.log.map (·.1.frame) := by
    intro hm
    obtain ⟨x, hx, e⟩ := List.mem_map.1 hm
    have := (h.log x hx).2.2.2.2
    rw [e] at this
    omega
  have hrx : w.rx p.frame = Decoder.ofFrame p.frame ps := by
    cases hl : Decoder.lookup w.s.map p.frame with
    | some b => exact (h.live _ b hl).2.1
    | none =>
      rw [h.inv.dat.2 _ hl]
      rcases h.gone _ hl with e | e
      · exact e.symm
      · exact absurd e hnew
  refine ⟨⟨by rw [h.stale]; exact List.not_mem_nil, hf⟩, hn p List.mem_cons_self, ?_⟩
  rw [hrx]
  exact fun hk => (List.nodup_cons.1 hd).1 (Decoder.ofFrame_keys.1 hk)

theorem deliv_every {c : Cfg} {S : List Nat} (ha : c.accepted = true) (hS : S.length ≤ c.buffers) (evs : List Ev) :
    ∀ (w : World) (ps : List Decoder.Packet), Deliv c S w ps → (∀ now, Ev.tick now ∉ evs) →
    (∀ p ∈ packetsOf evs, p.frame ∈ S ∧ p.frame ≠ noFrame) → Distinct ((packetsOf evs).reverse ++ ps) →
    (∀ p ∈ (packetsOf evs).reverse ++ ps, p.num < c.packets) → Every c (Regular c) w evs := by
  induction evs with
  | nil => intro w ps h _ _ _ _; trivial
  | cons e evs ih =>
    intro w ps h ht hp hd hn
    have ht' : ∀ now, Ev.tick now ∉ evs := fun now hm => ht now (List.mem_cons_of_mem _ hm)
    cases e with
    | packet p now =>
      simp only [packetsOf, List.reverse_cons, List.append_assoc, List.singleton_append] at hp hd hn
      have hd1 : Distinct (p :: ps) := by
        unfold Distinct at hd ⊢
        rw [List.map_append, List.nodup_append] at hd
        exact hd.2.1
      have hpf := hp p (List.mem_cons_self)
      have hn1 : ∀ q ∈ p :: ps, q.num < c.packets := fun q hq => hn q (List.mem_append_right _ hq)
      refine ⟨?_, ?_⟩
      · intro q t e
        cases e
        exact deliv_regular h hpf.2 hd1 hn1
      · intro w' hw
        obtain ⟨w1, h1, h2⟩ := deliv_packet now ha hS h hpf.1 hpf.2 hd1 hn1
        rw [hw] at h1
        cases h1
        exact ih w' (p :: ps) h2 ht' (fun q hq => hp q (List.mem_cons_of_mem _ hq)) hd hn
    | tick now => exact absurd (List.mem_cons_self) (ht now)
    | release b =>
      refine ⟨fun q t e => (by cases e), ?_⟩
      intro w' hw
      obtain ⟨w1, h1, h2⟩ := deliv_release b ha h
      rw [hw] at h1
      cases h1
      exact ih w' ps h2 ht' hp hd hn

/-! ## From packets to datagrams -/

/-- The datagrams of a history. -/
def datagramsOf : List Event → List (List Nat)
  | [] => []
  | .datagram d _ :: es => d :: datagramsOf es
  | _ :: es => datagramsOf es

theorem mem_datagramsOf {d : List Nat} : ∀ {es : List Event}, d ∈ datagramsOf es ↔ ∃ now, Event.datagram d now ∈ es
  | [] => by simp [datagramsOf]
  | .datagram e t :: es => by
    simp only [datagramsOf, List.mem_cons, Event.datagram.injEq, mem_datagramsOf (es := es)]
    constructor
    · rintro (h | ⟨now, h⟩)
      · exact ⟨t, Or.inl ⟨h, rfl⟩⟩
      · exact ⟨now, Or.inr h⟩
    · rintro ⟨now, ⟨h, -⟩ | h⟩
      · exact Or.inl h
      · exact Or.inr ⟨now, h⟩
  | .tick t :: es => by simp [datagramsOf, mem_datagramsOf (es := es)]
  | .release b :: es => by simp [datagramsOf, mem_datagramsOf (es := es)]

/-- Frame and packet number of a datagram. -/
def key (d : List Nat) : Nat × Nat := (word d 0, word d 4 % 1073741824)

theorem packets_keys (es : List Event) : ∀ k, (packetsOf (asEvents k es)).map (fun p => (p.frame, p.num)) = (datagramsOf es).map key := by
  induction es with
  | nil => intro k; rfl
  | cons e es ih =>
    intro k
    cases e with
    | datagram d now =>
      simp only [asEvents, packetsOf, datagramsOf, List.map_cons]
      rw [ih (k + 1)]
      rfl
    | tick now => exact ih k
    | release b => exact ih k

theorem no_ticks (es : List Event) (h : ∀ now, Event.tick now ∉ es) : ∀ k now, Ev.tick now ∉ asEvents k es := by
  induction es with
  | nil => intro k now hm; cases hm
  | cons e es ih =>
    have ih := ih (fun now hm => h now (List.mem_cons_of_mem _ hm))
    intro k now hm
    cases e with
    | datagram d t =>
      rcases List.mem_cons.1 hm with hm | hm
      · cases hm
      · exact ih _ _ hm
    | tick t => exact h t List.mem_cons_self
    | release b =>
      rcases List.mem_cons.1 hm with hm | hm
      · cases hm
      · exact ih _ _ hm

/-- What the decoder of packets does, the receiver of datagrams does. -/
theorem all_of_run (c : Cfg) (ha : c.accepted = true) (es : List Event) : ∀ (x : Rx) (w w' : World), Headed es → Same c x w →
    Inv c w → Every c (Regular c) w (asEvents x.got.length es) → Decoder.Spec.run c w (asEvents x.got.length es) = some w' →
    ∃ x', all c x es = some x' ∧ Same c x' w' := by
  induction es with
  | nil => intro x w w' _ h _ _ hr; cases hr; exact ⟨x, rfl, h⟩
  | cons e es ih =>
    intro x w w' hw h hi hp hr
    have hw' : Headed es := fun d now hm => hw d now (List.mem_cons_of_mem _ hm)
    cases e with
    | datagram d now =>
      obtain ⟨t, ht, hr1⟩ := Option.bind_eq_some_iff.1 hr
      have hreg := hp.1 _ now rfl
      obtain ⟨x1, g1, g2, g3⟩ := same_datagram c x w t d now h hi.own (hw d now (by simp)) hreg.1 ht
      have hlen : x1.got.length = x.got.length + 1 := by rw [g3, List.length_append]; rfl
      obtain ⟨x', q1, q2⟩ := ih x1 t w' hw' g2 (step_inv c ha w t _ hi hp.1 ht) (by rw [hlen]; exact hp.2 t ht) (by rw [hlen]; exact hr1)
      exact ⟨x', by show (next c x _).bind _ = _; rw [g1]; exact q1, q2⟩
    | tick now =>
      obtain ⟨t, ht, hr1⟩ := Option.bind_eq_some_iff.1 hr
      obtain ⟨x1, g1, g2, g3⟩ := same_tick c x w t now h ht
      obtain ⟨x', q1, q2⟩ := ih x1 t w' hw' g2 (step_inv c ha w t _ hi hp.1 ht) (by rw [g3]; exact hp.2 t ht) (by rw [g3]; exact hr1)
      exact ⟨x', by show (next c x _).bind _ = _; rw [g1]; exact q1, q2⟩
    | release b =>
      obtain ⟨t, ht, hr1⟩ := Option.bind_eq_some_iff.1 hr
      obtain ⟨x1, g1, g2, g3⟩ := same_release c x w t b h ht
      obtain ⟨x', q1, q2⟩ := ih x1 t w' hw' g2 (step_inv c ha w t _ hi hp.1 ht) (by rw [g3]; exact hp.2 t ht) (by rw [g3]; exact hr1)
      exact ⟨x', by show (next c x _).bind _ = _; rw [g1]; exact q1, q2⟩

/-! ## Datagrams of the simulator -/

theorem word_le4 (n : Nat) (h : n < 4294967296) :
    n % 256 + 256 * (n / 256 % 256) + 65536 * (n / 65536 % 256) + 16777216 * (n / 16777216 % 256) = n := by omega

theorem key_wire (r : Raw) (h1 : r.frame < 4294967296) (h2 : r.num < 1073741824) : key r.wire = (r.frame, r.num) := by
  have e1 := word_le4 r.frame h1
  have hlt : r.num + (if r.eof then 1073741824 else 0) + (if r.sof then 2147483648 else 0) < 4294967296 := by
    split <;> split <;> omega
  have hm : (r.num + (if r.eof then 1073741824 else 0) + (if r.sof then 2147483648 else 0)) % 1073741824 = r.num := by
    split <;> split <;> omega
  have e2 := word_le4 _ hlt
  refine Prod.ext e1 ?_
  show (_ : Nat) % 1073741824 = r.num
  rw [← hm]
  exact congrArg (· % 1073741824) e2

theorem wire_length (r : Raw) : r.wire.length = 8 + r.data.length := by
  unfold Raw.wire Simulator.le4
  simp
  omega

theorem wire_data (r : Raw) (j : Nat) : r.wire.getD (8 + j) 0 = r.data.getD j 0 := by
  unfold Raw.wire
  rw [List.getD_eq_getElem?_getD, List.getElem?_append_right (by simp [Simulator.le4])]
  rw [List.getD_eq_getElem?_getD]
  congr 2
  simp [Simulator.le4]

/-- All datagrams of the frames. -/
def wires (frames : List Frame) : List (List Nat) := frames.flatMap (fun f => f.packets.map Raw.wire)

/-- C44 for bytes, proved part: for images that do not fit into one packet. The datagrams of the simulator, in any order, between
any returns of buffers, and whatever the buffers held before: each frame is handed on, once, as complete, and the bytes of its
buffer are those of the image, although the last datagram of a frame may be short. -/
theorem C44_bytes_partial (pixels len n : Nat) (c : Cfg) (hl : 0 < len) (hbig : len < 2 * pixels) (hn : n < 2 ^ 32)
    (ha : c.accepted = true) (hpk : c.packets = parts (2 * pixels) len) (hsz : c.size = len) (hbuf : n ≤ c.buffers) :
    ∃ frames, create (2 * pixels) pixels len n = .ok frames ∧
      ∀ (old : Decoder.Loc → Nat → Nat) (es : List Event), (∀ now, Event.tick now ∉ es) →
        (datagramsOf es).Perm (wires frames) →
        ∃ x, all c (start c old) es = some x ∧ (x.log.map (·.1.frame)).Perm (List.range n) ∧
          ∀ y ∈ x.log, y.1.buf.state = .complete ∧ ∀ j, j < 2 * pixels → y.2 j = (image pixels).getD j 0 := by
  obtain ⟨frames, h1, h2, h3⟩ := createFrom_spec pixels len (2 * pixels) hl hbig (Nat.le_refl _) n 0 []
  have h3' : ∀ (j : Nat) (fr : Frame), frames[j]? = some fr → GoodFrame pixels len j fr := by
    intro j fr hj
    have := h3 j fr hj
    rwa [Nat.zero_add] at this
  have hkm := accepted_packets ha
  have hk : parts (2 * pixels) len ≤ 2 ^ 30 := by
    rw [← hpk]; unfold maxPackets at hkm; omega
  have hraw : ∀ fr ∈ frames, ∀ r ∈ fr.packets, r.frame < n ∧ r.num < parts (2 * pixels) len ∧ r.data = part pixels len r.num := by
    intro fr hfr r hr
    obtain ⟨j, hj, ej⟩ := List.mem_iff_getElem.1 hfr
    obtain ⟨i, hi, ei⟩ := List.mem_iff_getElem.1 hr
    obtain ⟨-, g2, -, g4⟩ := h3' j fr (by rw [List.getElem?_eq_getElem hj, ej])
    obtain ⟨q1, q2, -, q4⟩ := g4 i r (by rw [List.getElem?_eq_getElem hi, ei])
    rw [g2] at hi
    rw [Nat.mod_eq_of_lt (by omega)] at q1 q2
    exact ⟨by omega, by omega, by rw [q4, q2]⟩
  refine ⟨frames, h1, ?_⟩
  intro old es ht hperm
  -- the datagrams that arrive
  have hd : ∀ d ∈ datagramsOf es, ∃ fr ∈ frames, ∃ r ∈ fr.packets, d = r.wire ∧ key d = (r.frame, r.num) := by
    intro d hd
    obtain ⟨fr, hfr, hm⟩ := List.mem_flatMap.1 (hperm.mem_iff.1 hd)
    obtain ⟨r, hr, e⟩ := List.mem_map.1 hm
    obtain ⟨q1, q2, -⟩ := hraw fr hfr r hr
    exact ⟨fr, hfr, r, hr, e.symm, by rw [← e]; exact key_wire r (by omega) (by omega)⟩
  have hkeys : (wires frames).map key = (Simulator.Spec.datagrams (fun _ => 0) frames).map (fun p => (p.frame, p.num)) := by
    unfold wires Simulator.Spec.datagrams
    rw [List.map_flatMap, List.map_flatMap]
    have : ∀ l : List Frame, (∀ fr ∈ l, fr ∈ frames) →
        l.flatMap (fun f => (f.packets.map Raw.wire).map key) =
        l.flatMap (fun f => (f.packets.map (Simulator.Spec.asPacket (fun _ => 0))).map (fun p => (p.frame, p.num))) := by
      intro l
      induction l with
      | nil => intro _; rfl
      | cons f l ih =>
        intro hm
        rw [List.flatMap_cons, List.flatMap_cons, ih (fun fr hfr => hm fr (List.mem_cons_of_mem _ hfr))]
        congr 1
        rw [List.map_map, List.map_map]
        refine List.map_congr_left (fun r hr => ?_)
        obtain ⟨q1, q2, -⟩ := hraw f (hm f List.mem_cons_self) r hr
        exact key_wire r (by omega) (by omega)
    exact this frames (fun _ h => h)
  have hmem : ∀ p ∈ packetsOf (asEvents 0 es), ∃ d ∈ datagramsOf es, key d = (p.frame, p.num) := by
    intro p hp
    have : (p.frame, p.num) ∈ (datagramsOf es).map key := by
      rw [← packets_keys es 0]
      exact List.mem_map.2 ⟨p, hp, rfl⟩
    obtain ⟨d, hd, e⟩ := List.mem_map.1 this
    exact ⟨d, hd, e⟩
  have hin : ∀ p ∈ packetsOf (asEvents 0 es), p.frame ∈ List.range n ∧ p.frame ≠ 4294967295 ∧ p.num < c.packets := by
    intro p hp
    obtain ⟨d, hd1, e⟩ := hmem p hp
    obtain ⟨fr, hfr, r, hr, -, e2⟩ := hd d hd1
    obtain ⟨q1, q2, -⟩ := hraw fr hfr r hr
    rw [e2] at e
    obtain ⟨e3, e4⟩ := Prod.mk.inj e
    rw [← e3, ← e4, hpk]
    exact ⟨List.mem_range.2 q1, by omega, q2⟩
  have hdist : Distinct (packetsOf (asEvents 0 es)) := by
    unfold Distinct
    rw [packets_keys es 0]
    refine (hperm.map key).nodup_iff.2 ?_
    rw [hkeys]
    exact Simulator.datagrams_distinct hn hk h2 h3'
  have hP : 0 < c.packets := by rw [hpk]; exact parts_pos hl (by omega)
  have hS : (List.range n).length ≤ c.buffers := by rw [List.length_range]; exact hbuf
  obtain ⟨w, w1, w2, w3, w4⟩ := Decoder.C83 c (List.range n) (asEvents 0 es) ha hP hS (no_ticks es ht 0) hin hdist
  have hev : Every c (Regular c) (Decoder.Spec.init c) (asEvents 0 es) := by
    refine deliv_every ha hS (asEvents 0 es) (Decoder.Spec.init c) [] (deliv_init c _) (no_ticks es ht 0)
      (fun p hp => ⟨(hin p hp).1, (hin p hp).2.1⟩) ?_ (fun p hp => (hin p (by simpa using hp)).2.2)
    unfold Distinct at hdist ⊢
    rw [List.append_nil, List.map_reverse]
    exact (List.reverse_perm _).nodup_iff.2 hdist
  have hhead : Headed es := by
    intro d now hm
    obtain ⟨fr, hfr, r, hr, e, -⟩ := hd d (mem_datagramsOf.2 ⟨now, hm⟩)
    rw [e, wire_length]
    omega
  obtain ⟨x, x1, x2⟩ := all_of_run c ha es (start c old) (Decoder.Spec.init c) w hhead (init_same c old) (init_inv c) hev w1
  have hfr : x.log.map (·.1.frame) = w.log.map (·.1.frame) := by
    have := congrArg (List.map (·.frame)) x2.frames
    rw [List.map_map, List.map_map] at this
    exact this
  refine ⟨x, x1, ?_, ?_⟩
  · rw [hfr]
    refine (List.perm_ext_iff_of_nodup w2 List.nodup_range).2 (fun f => ?_)
    rw [w3, List.mem_range]
    constructor
    · intro hw
      obtain ⟨p, hp, e, -⟩ := hw 0 hP
      rw [← e]
      exact List.mem_range.1 (hin p hp).1
    · intro hf k hk'
      have hj : f < frames.length := by omega
      obtain ⟨-, g2, -, g4⟩ := h3' f frames[f] (List.getElem?_eq_getElem hj)
      have hi : k < frames[f].packets.length := by omega
      obtain ⟨q1, q2, -, -⟩ := g4 k frames[f].packets[k] (List.getElem?_eq_getElem hi)
      rw [Nat.mod_eq_of_lt (by omega)] at q1 q2
      have hm : (f, k) ∈ (packetsOf (asEvents 0 es)).map (fun p => (p.frame, p.num)) := by
        rw [packets_keys es 0, (hperm.map key).mem_iff]
        refine List.mem_map.2 ⟨frames[f].packets[k].wire, List.mem_flatMap.2 ⟨frames[f], List.getElem_mem hj,
          List.mem_map.2 ⟨_, List.getElem_mem hi, rfl⟩⟩, ?_⟩
        rw [key_wire _ (by omega) (by omega), q1, q2]
      obtain ⟨p, hp, e⟩ := List.mem_map.1 hm
      obtain ⟨e1, e2⟩ := Prod.mk.inj e
      exact ⟨p, hp, e1, e2⟩
  · intro y hy
    obtain ⟨l, g1, -, -⟩ := x2.log y hy
    have hc : y.1.buf.state = .complete := (w4 (y.1, l) g1).1
    refine ⟨hc, ?_⟩
    intro j hj
    obtain ⟨k1, k2⟩ := C166_headed c old es x ha hhead hev x1 y hy
    have hdm := Nat.div_add_mod j len
    have hml := Nat.mod_lt j hl
    have hlt : j / len < c.packets := by
      rw [hpk]
      unfold parts
      exact (Nat.div_lt_iff_lt_mul hl).2 (by
        have := Nat.div_add_mod (2 * pixels + len - 1) len
        have := Nat.mod_lt (2 * pixels + len - 1) hl
        rw [Nat.mul_comm]
        omega)
    obtain ⟨d, m1, m2, m3⟩ := k1 (j / len) (k2 hc _ hlt)
    have hdo : d ∈ datagramsOf es := by
      rcases got_mem c es _ x x1 d m1 with h | ⟨now, h⟩
      · cases h
      · exact mem_datagramsOf.2 ⟨now, h⟩
    obtain ⟨fr, hfr2, r, hr, e, e2⟩ := hd d hdo
    obtain ⟨-, -, q3⟩ := hraw fr hfr2 r hr
    have hnum : r.num = j / len := (Prod.mk.inj e2).2.symm.trans m2.2.2
    have hdat : r.data = ((image pixels).drop (j / len * len)).take len := by rw [q3, hnum]; rfl
    have hil := image_length pixels
    have hdl : j % len < r.data.length := by
      rw [hdat, List.length_take, List.length_drop, hil, Nat.mul_comm (j / len) len]
      omega
    have := m3 (j % len) (by rw [hsz]; exact hml) (by rw [e, wire_length]; omega)
    rw [hsz, Nat.mul_comm, hdm] at this
    rw [this, e, wire_data, hdat, List.getD_eq_getElem?_getD, List.getD_eq_getElem?_getD, List.getElem?_take_of_lt hml, List.getElem?_drop,
      Nat.mul_comm, hdm]

/-- Non-vacuity: three pixels in packets of four bytes, the second short; two frames whose datagrams are mixed. -/
def two : Cfg := { packets := 2, size := 4, buffers := 2, timeout := 1000 }

def mixed : List Event :=
  [.datagram [1, 0, 0, 0, 1, 0, 0, 64, 2, 0] 0, .datagram [0, 0, 0, 0, 0, 0, 0, 128, 0, 0, 1, 0] 1,
   .datagram [1, 0, 0, 0, 0, 0, 0, 128, 0, 0, 1, 0] 2, .release 0, .datagram [0, 0, 0, 0, 1, 0, 0, 64, 2, 0] 3]

example : (match create 6 3 4 2 with | .ok fs => (datagramsOf mixed).isPerm (wires fs) | _ => false) = true := by decide +kernel

example : (all two (start two (fun _ _ => 9)) mixed).map
    (fun x => x.log.map (fun y => (y.1.frame, y.1.buf.state, (List.range 8).map y.2))) =
    some [(1, .complete, [0, 0, 1, 0, 2, 0, 9, 9]), (0, .complete, [0, 0, 1, 0, 2, 0, 9, 9])] := by decide +kernel

end Verif.SimulatorBytes
