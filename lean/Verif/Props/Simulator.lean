import Verif.Model.Simulator
import Verif.Props.DecoderDelivery
/-! Properties C44 (simulated frames reassemble) and C82 (replaying). -/
namespace Verif.Simulator
open Verif.Decoder (Cfg)
open Verif.Decoder.Spec (Ev World packetsOf)

namespace Spec

/-- Number of packets of `len` bytes for `m` bytes. -/
def parts (m len : Nat) : Nat := (m + len - 1) / len

/-- The `i`th part of the image. -/
def part (pixels len i : Nat) : List Nat := ((image pixels).drop (i * len)).take len

/-- A datagram as the decoder sees it; `code` stands for the payload. -/
def asPacket (code : List Nat → Nat) (r : Raw) : Decoder.Packet := ⟨r.frame, r.num, code r.data⟩

/-- All datagrams of the frames. -/
def datagrams (code : List Nat → Nat) (frames : List Frame) : List Decoder.Packet :=
  frames.flatMap (fun f => f.packets.map (asPacket code))

/-- The decoder, given these events, has handed on the frames 0, ..., n-1, each once and complete, and the payload of
each is the image. -/
def Reassembled (c : Cfg) (pixels len n : Nat) (code : List Nat → Nat) (evs : List Ev) : Prop :=
  ∃ w, Decoder.Spec.run c (Decoder.Spec.init c) evs = some w ∧ (w.log.map (·.1.frame)).Perm (List.range n) ∧
    ∀ x ∈ w.log, x.1.buf.state = .complete ∧ x.1.buf.frame = x.1.frame ∧
      ∀ i, i < parts (2 * pixels) len → x.1.buf.pay i = code (part pixels len i)

/-- The packets of the `f`th round that are not dropped, in order, for port `p`. -/
def kept (drop : Nat → Bool) (port : Nat) (l : List Raw) : List Sent :=
  (l.zipIdx.filter (fun x => !drop x.2)).map (fun x => ⟨port, x.1⟩)

/-- The `f`th replayed frame is the stored frame `f` mod (their number). -/
def round (frames : List Frame) (f : Nat) : List Raw :=
  match frames[f % frames.length]? with
  | none => []
  | some fr => fr.packets

/-- What is to be sent: in round `f` the kept packets, in order, to port `f` mod (number of ports). -/
def expected (ports : Nat) (drop : Nat → Nat → Bool) (frames : List Frame) (k : Nat) : List Sent :=
  (List.range k).flatMap (fun f => kept (drop f) (f % ports) (round frames f))

end Spec
open Spec

/-! ## C44 -/

theorem parts_pos {m len : Nat} (h : 0 < len) (hm : 0 < m) : 0 < parts m len := by
  unfold parts
  exact Nat.div_pos (by omega) h

theorem parts_small {m len : Nat} (hm : 0 < m) (h : m ≤ len) : parts m len = 1 := by
  unfold parts
  have : m + len - 1 = (m - 1) + len := by omega
  rw [this, Nat.add_div_right _ (by omega), Nat.div_eq_of_lt (by omega)]

theorem parts_big {m len : Nat} (hl : 0 < len) (h : len < m) : parts m len = parts (m - len) len + 1 := by
  unfold parts
  have : m + len - 1 = (m - len + len - 1) + len := by omega
  rw [this, Nat.add_div_right _ hl]

/-- The packets of one frame. -/
theorem packets_spec (len f : Nat) (hl : 0 < len) : ∀ (fuel num : Nat) (bytes : List Nat), bytes ≠ [] → bytes.length ≤ fuel →
    ∃ rs, packets len f fuel num bytes = some rs ∧ rs.length = parts bytes.length len ∧
      (rs.map (·.data)).flatten = bytes ∧
      ∀ (i : Nat) (r : Raw), rs[i]? = some r → r.frame = f % 2 ^ 32 ∧ r.num = (num + i) % 2 ^ 30 ∧
        r.sof = decide (num + i = 0 ∧ i + 1 < rs.length) ∧ r.eof = decide (i + 1 = rs.length) ∧
        r.data = (bytes.drop (i * len)).take len := by
  intro fuel
  induction fuel with
  | zero => intro num bytes hb hf; exact absurd (List.length_eq_zero_iff.1 (by omega)) hb
  | succ fuel ih =>
    intro num bytes hb hf
    cases bytes with
    | nil => exact absurd rfl hb
    | cons b bs =>
      by_cases hbig : (b :: bs).length > len
      · have hnp : nextPacket len f num (b :: bs) =
            { frame := f % 2 ^ 32, num := num % 2 ^ 30, sof := decide (num = 0), eof := false, data := (b :: bs).take len } :=
          if_pos hbig
        have hdl : ((b :: bs).take len).length = len := by rw [List.length_take]; omega
        have hdl2 : ((b :: bs).drop len).length = (b :: bs).length - len := List.length_drop
        obtain ⟨rs, h1, h2, h3, h4⟩ := ih (num + 1) ((b :: bs).drop len)
          (by intro e; rw [e] at hdl2; simp only [List.length_nil] at hdl2; omega) (by omega)
        have hk : 0 < rs.length := by rw [h2, hdl2]; exact parts_pos hl (by omega)
        refine ⟨nextPacket len f num (b :: bs) :: rs, ?_, ?_, ?_, ?_⟩
        · simp only [packets]
          rw [hnp]
          simp only
          rw [hdl, h1]
          rfl
        · rw [List.length_cons, h2, hdl2, parts_big hl hbig]
        · rw [List.map_cons, List.flatten_cons, h3, hnp]
          exact List.take_append_drop len (b :: bs)
        · intro i r hr
          cases i with
          | zero =>
            simp only [List.getElem?_cons_zero, Option.some.injEq] at hr
            subst hr
            rw [hnp]
            refine ⟨rfl, rfl, ?_, ?_, ?_⟩
            · simp only [Nat.add_zero, List.length_cons]
              by_cases hn : num = 0 <;> simp [hn]
              exact hk
            · simp only [List.length_cons]
              have : ¬ (0 + 1 = rs.length + 1) := by omega
              simp only [this, decide_false]
            · simp only [Nat.zero_mul, List.drop_zero]
          | succ i =>
            rw [List.getElem?_cons_succ] at hr
            obtain ⟨g1, g2, g3, g4, g5⟩ := h4 i r hr
            refine ⟨g1, ?_, ?_, ?_, ?_⟩
            · rw [g2]; congr 1; omega
            · rw [g3]
              have e1 : ¬ (num + 1 + i = 0 ∧ i + 1 < rs.length) := by omega
              have e2 : ¬ (num + (i + 1) = 0 ∧ i + 1 + 1 < (nextPacket len f num (b :: bs) :: rs).length) := by omega
              rw [decide_eq_false e1, decide_eq_false e2]
            · rw [g4]
              have : (i + 1 = rs.length) ↔ (i + 1 + 1 = (nextPacket len f num (b :: bs) :: rs).length) := by
                rw [List.length_cons]; omega
              exact decide_eq_decide.2 this
            · rw [g5, List.drop_drop]
              congr 2
              rw [Nat.succ_mul]; omega
      · have hnp : nextPacket len f num (b :: bs) =
            { frame := f % 2 ^ 32, num := num % 2 ^ 30, sof := false, eof := true, data := b :: bs } := if_neg hbig
        refine ⟨[nextPacket len f num (b :: bs)], ?_, ?_, ?_, ?_⟩
        · simp only [packets]
          rw [hnp]
          simp only [List.drop_length]
          cases fuel <;> rfl
        · rw [parts_small (by simp) (by omega)]; rfl
        · rw [hnp]; simp
        · intro i r hr
          cases i with
          | zero =>
            simp only [List.getElem?_cons_zero, Option.some.injEq] at hr
            subst hr
            rw [hnp]
            refine ⟨rfl, rfl, by simp, by simp, ?_⟩
            simp only [Nat.zero_mul, List.drop_zero]
            rw [List.take_of_length_le (by omega)]
          | succ i => simp at hr

theorem extractAll_tail (fr : Frame) (fs : List Frame) (rs : List Raw) : (∀ r ∈ rs, r.sof = false) →
    ∀ l, fr.packets = l → extractAll (fr :: fs) rs = some ({ fr with packets := l ++ rs } :: fs) := by
  induction rs generalizing fr with
  | nil => intro _ l hl; subst hl; simp [extractAll]
  | cons r rs ih =>
    intro h l hl
    have hr := h r (List.mem_cons_self)
    simp only [extractAll, extract, hr, Bool.false_eq_true, if_false, Option.bind_some]
    rw [ih { fr with packets := fr.packets ++ [r] } (fun x hx => h x (List.mem_cons_of_mem _ hx)) (l ++ [r]) (by simp [hl])]
    simp

/-- A frame beginning with SOF and without SOF after it becomes one frame. -/
theorem extractAll_frame (fs : List Frame) (r : Raw) (rs : List Raw) (h1 : r.sof = true) (h2 : ∀ r ∈ rs, r.sof = false) :
    extractAll fs (r :: rs) = some ({ number := r.frame, packets := r :: rs } :: fs) := by
  simp only [extractAll, extract, h1, if_true, Option.bind_some]
  rw [extractAll_tail _ fs rs h2 [r] (by simp)]
  rfl

theorem image_length (pixels : Nat) : (image pixels).length = 2 * pixels := by
  unfold image
  induction pixels with
  | zero => rfl
  | succ n ih =>
    rw [List.range_succ, List.flatMap_append, List.length_append, ih]
    simp
    omega

/-- Packet `i` of frame `f` is as it should be. -/
def GoodPacket (pixels len f k i : Nat) (r : Raw) : Prop :=
  r.frame = f % 2 ^ 32 ∧ r.num = i % 2 ^ 30 ∧ r.eof = decide (i + 1 = k) ∧ r.data = part pixels len i

/-- Frame `f` is as it should be. -/
def GoodFrame (pixels len f : Nat) (fr : Frame) : Prop :=
  fr.number = f % 2 ^ 32 ∧ fr.packets.length = parts (2 * pixels) len ∧ (fr.packets.map (·.data)).flatten = image pixels ∧
  ∀ (i : Nat) (r : Raw), fr.packets[i]? = some r → GoodPacket pixels len f (parts (2 * pixels) len) i r

theorem frame_spec (pixels len f fuel : Nat) (fs : List Frame) (hl : 0 < len) (hb : len < 2 * pixels) (hf : 2 * pixels ≤ fuel) :
    ∃ rs fr, packets len f fuel 0 (image pixels) = some rs ∧ extractAll fs rs = some (fr :: fs) ∧ GoodFrame pixels len f fr := by
  have hlen := image_length pixels
  obtain ⟨rs, h1, h2, h3, h4⟩ := packets_spec len f hl fuel 0 (image pixels)
    (by intro e; rw [e] at hlen; simp only [List.length_nil] at hlen; omega) (by omega)
  rw [hlen] at h2
  have hk : 1 < rs.length := by
    rw [h2, parts_big hl hb]
    have := parts_pos (m := 2 * pixels - len) hl (by omega)
    omega
  cases rs with
  | nil => simp at hk
  | cons r rs =>
    have hr := h4 0 r rfl
    refine ⟨r :: rs, { number := r.frame, packets := r :: rs }, h1, ?_, ?_⟩
    · refine extractAll_frame fs r rs ?_ ?_
      · rw [hr.2.2.1]
        exact decide_eq_true ⟨rfl, by omega⟩
      · intro x hx
        obtain ⟨i, hi, e⟩ := List.mem_iff_getElem.1 hx
        have := (h4 (i + 1) x (by rw [List.getElem?_cons_succ, List.getElem?_eq_getElem hi, e])).2.2.1
        rw [this]
        exact decide_eq_false (by omega)
    · refine ⟨hr.1, h2, h3, ?_⟩
      intro i x hx
      obtain ⟨g1, g2, g3, g4, g5⟩ := h4 i x hx
      refine ⟨g1, ?_, ?_, g5⟩
      · rw [g2, Nat.zero_add]
      · rw [g4, h2]

theorem createFrom_spec (pixels len fuel : Nat) (hl : 0 < len) (hb : len < 2 * pixels) (hf : 2 * pixels ≤ fuel) (n : Nat) :
    ∀ (k : Nat) (fs : List Frame), ∃ gs, createFrom fuel pixels len fs k n = .ok (fs.reverse ++ gs) ∧ gs.length = n ∧
      ∀ (j : Nat) (fr : Frame), gs[j]? = some fr → GoodFrame pixels len (k + j) fr := by
  induction n with
  | zero => intro k fs; exact ⟨[], by simp [createFrom], rfl, fun j fr h => (by simp at h)⟩
  | succ n ih =>
    intro k fs
    obtain ⟨rs, fr, h1, h2, h3⟩ := frame_spec pixels len k fuel fs hl hb hf
    obtain ⟨gs, g1, g2, g3⟩ := ih (k + 1) (fr :: fs)
    refine ⟨fr :: gs, ?_, by rw [List.length_cons, g2], ?_⟩
    · simp only [createFrom]
      rw [h1]
      simp only
      rw [h2]
      simp only
      rw [g1]
      simp
    · intro j x hx
      cases j with
      | zero =>
        simp only [List.getElem?_cons_zero, Option.some.injEq] at hx
        subst hx
        exact h3
      | succ j =>
        rw [List.getElem?_cons_succ] at hx
        have := g3 j x hx
        rw [show k + 1 + j = k + (j + 1) by omega] at this
        exact this

/-- C44, full statement: for every image and packet length the frames are created, and delivered in any order to a
decoder set up for them, they are put together again. -/
def C44_statement : Prop :=
  ∀ (pixels len n : Nat) (c : Cfg) (code : List Nat → Nat), 0 < pixels → 0 < len → n < 2 ^ 32 → c.accepted = true →
    c.packets = parts (2 * pixels) len → c.size = len → n ≤ c.buffers →
    ∃ frames, create (2 * pixels) pixels len n = .ok frames ∧
      ∀ evs : List Ev, (∀ now, Ev.tick now ∉ evs) → (packetsOf evs).Perm (datagrams code frames) →
        Reassembled c pixels len n code evs

/-- What a good frame gives on the wire. -/
theorem mem_datagrams {pixels len n : Nat} {frames : List Frame} {code : List Nat → Nat} (hn : n < 2 ^ 32)
    (hk : parts (2 * pixels) len ≤ 2 ^ 30) (hlen : frames.length = n)
    (hg : ∀ (j : Nat) (fr : Frame), frames[j]? = some fr → GoodFrame pixels len j fr) (p : Decoder.Packet) :
    p ∈ datagrams code frames ↔ p.frame < n ∧ p.num < parts (2 * pixels) len ∧ p.pay = code (part pixels len p.num) := by
  unfold datagrams
  rw [List.mem_flatMap]
  constructor
  · rintro ⟨fr, hfr, hp⟩
    obtain ⟨r, hr, e⟩ := List.mem_map.1 hp
    obtain ⟨j, hj, ej⟩ := List.mem_iff_getElem.1 hfr
    obtain ⟨i, hi, ei⟩ := List.mem_iff_getElem.1 hr
    obtain ⟨-, g2, -, g4⟩ := hg j fr (by rw [List.getElem?_eq_getElem hj, ej])
    obtain ⟨q1, q2, -, q4⟩ := g4 i r (by rw [List.getElem?_eq_getElem hi, ei])
    rw [g2] at hi
    have e1 : j % 2 ^ 32 = j := Nat.mod_eq_of_lt (by omega)
    have e2 : i % 2 ^ 30 = i := Nat.mod_eq_of_lt (by omega)
    rw [e1] at q1
    rw [e2] at q2
    subst e
    refine ⟨?_, ?_, ?_⟩
    · show r.frame < n; omega
    · show r.num < _; omega
    · show code r.data = code (part pixels len r.num)
      rw [q4, q2]
  · rintro ⟨h1, h2, h3⟩
    have hj : p.frame < frames.length := by omega
    obtain ⟨-, g2, -, g4⟩ := hg p.frame frames[p.frame] (List.getElem?_eq_getElem hj)
    have hi : p.num < frames[p.frame].packets.length := by omega
    obtain ⟨q1, q2, -, q4⟩ := g4 p.num frames[p.frame].packets[p.num] (List.getElem?_eq_getElem hi)
    refine ⟨frames[p.frame], List.getElem_mem hj, List.mem_map.2 ⟨frames[p.frame].packets[p.num], List.getElem_mem hi, ?_⟩⟩
    rw [Nat.mod_eq_of_lt (by omega)] at q1 q2
    obtain ⟨a, b, d⟩ := p
    simp only at h3
    show Decoder.Packet.mk _ _ _ = _
    rw [q1, q2, q4, h3]

theorem datagrams_distinct {pixels len n : Nat} {frames : List Frame} {code : List Nat → Nat} (hn : n < 2 ^ 32)
    (hk : parts (2 * pixels) len ≤ 2 ^ 30) (hlen : frames.length = n)
    (hg : ∀ (j : Nat) (fr : Frame), frames[j]? = some fr → GoodFrame pixels len j fr) :
    Decoder.Spec.Distinct (datagrams code frames) := by
  unfold Decoder.Spec.Distinct datagrams
  rw [List.map_flatMap]
  refine List.pairwise_flatMap.2 ⟨?_, ?_⟩
  · intro fr hfr
    obtain ⟨j, hj, ej⟩ := List.mem_iff_getElem.1 hfr
    obtain ⟨-, g2, -, g4⟩ := hg j fr (by rw [List.getElem?_eq_getElem hj, ej])
    rw [List.map_map]
    refine List.pairwise_map.2 (List.pairwise_iff_getElem.2 ?_)
    intro a b ha hb hab e
    have qa := g4 a _ (List.getElem?_eq_getElem ha)
    have qb := g4 b _ (List.getElem?_eq_getElem hb)
    have e' : fr.packets[a].num = fr.packets[b].num := (Prod.mk.inj e).2
    rw [qa.2.1, qb.2.1, Nat.mod_eq_of_lt (by omega), Nat.mod_eq_of_lt (by omega)] at e'
    omega
  · refine List.pairwise_iff_getElem.2 ?_
    intro a b ha hb hab x hx y hy e
    subst e
    have hfr : ∀ (j : Nat) (hj : j < frames.length) (x : Nat × Nat), x ∈ (frames[j].packets.map (asPacket code)).map (fun p => (p.frame, p.num)) →
        x.1 = j := by
      intro j hj x hx
      obtain ⟨p, hp, e⟩ := List.mem_map.1 hx
      obtain ⟨r, hr, e2⟩ := List.mem_map.1 hp
      obtain ⟨i, hi, ei⟩ := List.mem_iff_getElem.1 hr
      obtain ⟨-, -, -, g4⟩ := hg j frames[j] (List.getElem?_eq_getElem hj)
      have q := (g4 i r (by rw [List.getElem?_eq_getElem hi, ei])).1
      rw [Nat.mod_eq_of_lt (by omega)] at q
      subst e; subst e2
      exact q
    have h1 := hfr a ha x hx
    have h2 := hfr b hb x hy
    omega

/-- C44, proved part: for images that do not fit into one packet. Missing: images that do (`C44_violated`). -/
theorem C44_partial (pixels len n : Nat) (c : Cfg) (code : List Nat → Nat) (hl : 0 < len) (hbig : len < 2 * pixels)
    (hn : n < 2 ^ 32) (ha : c.accepted = true) (hpk : c.packets = parts (2 * pixels) len) (hbuf : n ≤ c.buffers) :
    ∃ frames, create (2 * pixels) pixels len n = .ok frames ∧ frames.length = n ∧
      (∀ fr ∈ frames, (fr.packets.map (·.data)).flatten = image pixels) ∧
      ∀ evs : List Ev, (∀ now, Ev.tick now ∉ evs) → (packetsOf evs).Perm (datagrams code frames) →
        Reassembled c pixels len n code evs := by
  obtain ⟨frames, h1, h2, h3⟩ := createFrom_spec pixels len (2 * pixels) hl hbig (Nat.le_refl _) n 0 []
  have h3' : ∀ (j : Nat) (fr : Frame), frames[j]? = some fr → GoodFrame pixels len j fr := by
    intro j fr hj
    have := h3 j fr hj
    rwa [Nat.zero_add] at this
  have hkm := Decoder.accepted_packets ha
  have hk : parts (2 * pixels) len ≤ 2 ^ 30 := by
    rw [← hpk]; unfold Decoder.maxPackets at hkm; omega
  refine ⟨frames, h1, h2, ?_, ?_⟩
  · intro fr hfr
    obtain ⟨j, hj, ej⟩ := List.mem_iff_getElem.1 hfr
    exact (h3' j fr (by rw [List.getElem?_eq_getElem hj, ej])).2.2.1
  · intro evs ht hperm
    have hmem : ∀ p : Decoder.Packet, p ∈ packetsOf evs ↔
        p.frame < n ∧ p.num < parts (2 * pixels) len ∧ p.pay = code (part pixels len p.num) := by
      intro p
      rw [hperm.mem_iff]
      exact mem_datagrams hn hk h2 h3' p
    have hdist : Decoder.Spec.Distinct (packetsOf evs) :=
      (hperm.map (fun p : Decoder.Packet => (p.frame, p.num))).nodup_iff.2 (datagrams_distinct hn hk h2 h3')
    have hP : 0 < c.packets := by rw [hpk]; exact parts_pos hl (by omega)
    obtain ⟨w, w1, w2, w3, w4⟩ := Decoder.C83 c (List.range n) evs ha hP (by rw [List.length_range]; exact hbuf) ht
      (by
        intro p hp
        obtain ⟨q1, q2, -⟩ := (hmem p).1 hp
        exact ⟨List.mem_range.2 q1, by omega, by rw [hpk]; exact q2⟩) hdist
    refine ⟨w, w1, ?_, ?_⟩
    · refine (List.perm_ext_iff_of_nodup w2 List.nodup_range).2 (fun f => ?_)
      rw [w3, List.mem_range]
      constructor
      · intro hw
        obtain ⟨p, hp, e, -⟩ := hw 0 hP
        rw [← e]
        exact ((hmem p).1 hp).1
      · intro hf k hk'
        exact ⟨⟨f, k, code (part pixels len k)⟩, (hmem _).2 ⟨hf, by rw [← hpk]; exact hk', rfl⟩, rfl, rfl⟩
    · intro x hx
      obtain ⟨q1, q2, q3⟩ := w4 x hx
      refine ⟨q1, q2, fun i hi => ?_⟩
      exact ((hmem _).1 (q3 i (by rw [hpk]; exact hi))).2.2

/-- C44 is false of the code: a frame of one packet is only marked as the end of a frame, and `extract_frames` stores it
in the last frame of an empty list. -/
theorem C44_violated : ¬ C44_statement := by
  intro h
  obtain ⟨frames, h1, -⟩ := h 4 8 1 { packets := 1, size := 8, buffers := 1, timeout := 1000 } (fun _ => 0) (by decide)
    (by decide) (by decide) (by decide) (by decide) rfl (by decide)
  have h2 : create (2 * 4) 4 8 1 = .ub := by decide +kernel
  rw [h2] at h1
  cases h1

/-- So it is for every image that fits into one packet. -/
theorem C44_single (pixels len n fuel : Nat) (hp : 0 < pixels) (hl : 2 * pixels ≤ len) (hf : 2 * pixels ≤ fuel) :
    create fuel pixels len (n + 1) = .ub := by
  have hlen := image_length pixels
  obtain ⟨rs, h1, h2, -, h4⟩ := packets_spec len 0 (by omega) fuel 0 (image pixels)
    (by intro e; rw [e] at hlen; simp only [List.length_nil] at hlen; omega) (by omega)
  rw [hlen, parts_small (by omega) hl] at h2
  unfold create createFrom
  rw [h1]
  match rs, h2, h4 with
  | [r], _, h4 =>
    have := (h4 0 r rfl).2.2.1
    have hs : r.sof = false := by rw [this]; rfl
    simp [extractAll, extract, hs]

/-- With packet length 0 the loop does not end. -/
theorem C44_endless (pixels n fuel : Nat) (hp : 0 < pixels) : create fuel pixels 0 (n + 1) = .endless := by
  have key : ∀ (fuel num : Nat) (bytes : List Nat), bytes ≠ [] → packets 0 0 fuel num bytes = none := by
    intro fuel
    induction fuel with
    | zero =>
      intro num bytes hb
      cases bytes with
      | nil => exact absurd rfl hb
      | cons b bs => rfl
    | succ fuel ih =>
      intro num bytes hb
      cases bytes with
      | nil => exact absurd rfl hb
      | cons b bs =>
        have hnp : (nextPacket 0 0 num (b :: bs)).data.length = 0 := by
          unfold nextPacket
          rw [if_pos (by simp)]
          simp
        simp only [packets]
        rw [hnp, List.drop_zero, ih (num + 1) (b :: bs) hb]
        rfl
  have hlen := image_length pixels
  unfold create createFrom
  rw [key fuel 0 (image pixels) (by intro e; rw [e] at hlen; simp only [List.length_nil] at hlen; omega)]

/-- C44: pixel `i` of the test image is the number `i` cut to 16 bits, in two bytes, the low one first. -/
theorem C44_pattern (pixels i : Nat) (h : i < pixels) :
    ∃ lo hi, (image pixels)[2 * i]? = some lo ∧ (image pixels)[2 * i + 1]? = some hi ∧ lo + 256 * hi = i % 65536 ∧ lo < 256 := by
  refine ⟨i % 256, i / 256 % 256, ?_, ?_, by omega, by omega⟩
  all_goals
    induction pixels with
    | zero => omega
    | succ n ih =>
      have hl := image_length n
      have hs : image (n + 1) = image n ++ [n % 256, n / 256 % 256] := by
        unfold image
        rw [List.range_succ, List.flatMap_append]
        simp
      rw [hs]
      by_cases e : i = n
      · subst e
        rw [List.getElem?_append_right (by omega), hl]
        simp
      · rw [List.getElem?_append_left (by omega)]
        exact ih (by omega)

/-- Non-vacuity: three pixels in packets of four bytes, two frames; the datagrams mixed up. -/
example : create 6 3 4 2 = .ok [
    ⟨0, [⟨0, 0, true, false, [0, 0, 1, 0]⟩, ⟨0, 1, false, true, [2, 0]⟩]⟩,
    ⟨1, [⟨1, 0, true, false, [0, 0, 1, 0]⟩, ⟨1, 1, false, true, [2, 0]⟩]⟩] := by decide +kernel

def two : Cfg := { packets := 2, size := 4, buffers := 2, timeout := 1000 }

def shuffled : List Ev := [.packet ⟨1, 1, 2⟩ 0, .packet ⟨0, 0, 1⟩ 1, .packet ⟨1, 0, 1⟩ 2, .packet ⟨0, 1, 2⟩ 3]

example : two.accepted = true ∧ two.packets = parts (2 * 3) 4 := by decide

example : (Decoder.Spec.run two (Decoder.Spec.init two) shuffled).map (fun w => w.log.map (fun x =>
    (x.1.frame, x.1.buf.state, (List.range 2).map x.1.buf.pay))) =
    some [(1, .complete, [1, 2]), (0, .complete, [1, 2])] := by decide +kernel

/-! ## C82 -/

/-- C82, full statement: replaying sends what is expected. -/
def C82_statement : Prop :=
  ∀ (ports : Nat) (gap : Option Nat) (drop : Nat → Nat → Bool) (frames : List Frame) (k : Nat), 0 < ports → frames ≠ [] →
    replay ports gap drop frames k = some (expected ports drop frames k)

def keptFrom (drop : Nat → Bool) (port p : Nat) (l : List Raw) : List Sent :=
  ((l.zipIdx p).filter (fun x => !drop x.2)).map (fun x => ⟨port, x.1⟩)

theorem keptFrom_cons (drop : Nat → Bool) (port p : Nat) (r : Raw) (l : List Raw) :
    keptFrom drop port p (r :: l) = if drop p then keptFrom drop port (p + 1) l else ⟨port, r⟩ :: keptFrom drop port (p + 1) l := by
  unfold keptFrom
  rw [List.zipIdx_cons]
  by_cases h : drop p = true
  · simp [h]
  · simp [h]

theorem nextPort_twice (ports : Nat) (s : Port) (n : Nat) : nextPort ports (nextPort ports s n) n = nextPort ports s n := by
  unfold nextPort
  by_cases h : n = s.frame
  · rw [if_pos h, if_pos h]
  · rw [if_neg h, if_pos rfl]

/-- The packets of one frame: all that are kept, in order, to one port; the port moves on if there is one. -/
theorem sendFrame_spec (ports : Nat) (gap : Option Nat) (drop : Nat → Bool) (n : Nat) (hgap : gap ≠ some 0) (rs : List Raw) :
    ∀ (s : Port) (p : Nat), sendFrame ports gap drop n s p rs =
      some (if keptFrom drop 0 p rs = [] then s else nextPort ports s n, keptFrom drop (nextPort ports s n).index p rs) := by
  induction rs with
  | nil => intro s p; simp [sendFrame, keptFrom]
  | cons r rs ih =>
    intro s p
    simp only [sendFrame]
    rw [keptFrom_cons, keptFrom_cons]
    by_cases hd : drop p = true
    · rw [if_pos hd, if_pos hd, if_pos hd, ih]
    · rw [if_neg hd, if_neg hd, if_neg hd, if_neg hgap, ih]
      simp only [Option.map_some, nextPort_twice, ite_self]
      rw [if_neg (List.cons_ne_nil _ _)]

theorem keptFrom_map (drop : Nat → Bool) (a b p : Nat) (l : List Raw) :
    (keptFrom drop a p l).map (·.packet) = (keptFrom drop b p l).map (·.packet) := by
  unfold keptFrom
  rw [List.map_map, List.map_map]
  rfl

theorem replayFrom_packets (ports : Nat) (gap : Option Nat) (drop : Nat → Nat → Bool) (frames : List Frame) (hgap : gap ≠ some 0)
    (hf : frames ≠ []) (k : Nat) : ∀ (s : Port) (f : Nat),
    ∃ l, replayFrom ports gap drop frames s f k = some l ∧
      l.map (·.packet) = ((List.range' f k).flatMap (fun f => kept (drop f) (f % ports) (round frames f))).map (·.packet) := by
  have hpos : 0 < frames.length := List.length_pos_iff.2 hf
  induction k with
  | zero => intro s f; exact ⟨[], rfl, rfl⟩
  | succ k ih =>
    intro s f
    have hlt : f % frames.length < frames.length := Nat.mod_lt _ hpos
    simp only [replayFrom]
    rw [List.getElem?_eq_getElem hlt]
    simp only
    rw [sendFrame_spec ports gap (drop f) _ hgap]
    simp only
    obtain ⟨l, h1, h2⟩ := ih (if keptFrom (drop f) 0 0 frames[f % frames.length].packets = [] then s
      else nextPort ports s (f % frames.length)) (f + 1)
    rw [h1]
    refine ⟨_, rfl, ?_⟩
    rw [List.map_append, h2, List.range'_succ, List.flatMap_cons, List.map_append]
    congr 1
    unfold round
    rw [List.getElem?_eq_getElem hlt]
    exact keptFrom_map _ _ _ _ _

/-- C82, the packets: whatever the ports, every packet that is not dropped is sent once, in order. -/
theorem C82_packets (ports : Nat) (gap : Option Nat) (drop : Nat → Nat → Bool) (frames : List Frame) (k : Nat)
    (hgap : gap ≠ some 0) (hf : frames ≠ []) :
    ∃ l, replay ports gap drop frames k = some l ∧ l.map (·.packet) = (expected ports drop frames k).map (·.packet) := by
  obtain ⟨l, h1, h2⟩ := replayFrom_packets ports gap drop frames hgap hf k {} 0
  refine ⟨l, h1, ?_⟩
  rw [h2]
  unfold expected
  rw [List.range_eq_range']

/-- Before round `f`. -/
def PortInv (ports L f : Nat) (s : Port) : Prop :=
  (f = 0 ∧ s = {}) ∨ (0 < f ∧ s.index = (f - 1) % ports ∧ s.frame = (f - 1) % L)

theorem mod_succ_cases (f n : Nat) (hn : 0 < n) : (f + 1) % n = if f % n + 1 < n then f % n + 1 else 0 := by
  have h1 := Nat.mod_lt f hn
  have h2 := Nat.div_add_mod f n
  by_cases h : f % n + 1 < n
  · rw [if_pos h]
    have : f + 1 = n * (f / n) + (f % n + 1) := by omega
    rw [this, Nat.mul_add_mod, Nat.mod_eq_of_lt h]
  · rw [if_neg h]
    have : f + 1 = n * (f / n + 1) := by rw [Nat.mul_succ]; omega
    rw [this, Nat.mul_mod_right]

theorem nextPort_inv {ports L f : Nat} {s : Port} (hp : 0 < ports) (hL : 2 ≤ L ∨ (ports = 1 ∧ L = 1)) (h : PortInv ports L f s) :
    (nextPort ports s (f % L)).index = f % ports ∧ (nextPort ports s (f % L)).frame = f % L := by
  rcases h with ⟨rfl, rfl⟩ | ⟨h0, h1, h2⟩
  · unfold nextPort
    rw [if_pos (by simp)]
    simp
  · obtain ⟨g, rfl⟩ : ∃ g, f = g + 1 := ⟨f - 1, by omega⟩
    rw [Nat.add_sub_cancel] at h1 h2
    rcases hL with hL | ⟨hL1, hL2⟩
    · have hne : (g + 1) % L ≠ s.frame := by
        rw [h2, mod_succ_cases g L (by omega)]
        split <;> omega
      unfold nextPort
      rw [if_neg hne]
      simp only
      rw [h1, mod_succ_cases g ports hp]
      exact ⟨rfl, trivial⟩
    · subst hL1; subst hL2
      rw [Nat.mod_one] at h1 h2 ⊢
      unfold nextPort
      rw [if_pos h2.symm, h1, h2]
      exact ⟨rfl, rfl⟩

theorem replayFrom_spec (ports : Nat) (gap : Option Nat) (drop : Nat → Nat → Bool) (frames : List Frame) (hgap : gap ≠ some 0)
    (hf : frames ≠ []) (hp : 0 < ports) (hL : 2 ≤ frames.length ∨ (ports = 1 ∧ frames.length = 1)) (k : Nat) : ∀ (s : Port) (f : Nat),
    PortInv ports frames.length f s → (∀ g, f ≤ g → g < f + k → kept (drop g) 0 (round frames g) ≠ []) →
    replayFrom ports gap drop frames s f k =
      some ((List.range' f k).flatMap (fun f => kept (drop f) (f % ports) (round frames f))) := by
  have hpos : 0 < frames.length := List.length_pos_iff.2 hf
  induction k with
  | zero => intro s f _ _; rfl
  | succ k ih =>
    intro s f hs hk
    have hlt : f % frames.length < frames.length := Nat.mod_lt _ hpos
    have hr : round frames f = frames[f % frames.length].packets := by
      unfold round
      rw [List.getElem?_eq_getElem hlt]
    simp only [replayFrom]
    rw [List.getElem?_eq_getElem hlt]
    simp only
    rw [sendFrame_spec ports gap (drop f) _ hgap]
    simp only
    have hne : keptFrom (drop f) 0 0 frames[f % frames.length].packets ≠ [] := by
      rw [← hr]; exact hk f (Nat.le_refl _) (by omega)
    rw [if_neg hne]
    obtain ⟨p1, p2⟩ := nextPort_inv hp hL hs
    rw [ih (nextPort ports s (f % frames.length)) (f + 1) (Or.inr ⟨by omega, by rw [p1]; rfl, by rw [p2]; rfl⟩)
      (fun g h1 h2 => hk g (by omega) (by omega))]
    rw [p1, List.range'_succ, List.flatMap_cons, hr]
    rfl

/-- C82, proved part: with a positive packet gap or none, two or more stored frames (or one port), and no frame whose
packets are all dropped. Missing: the rest (`C82_violated`, `C82_one_frame`, `C82_lost_frame`). -/
theorem C82_partial (ports : Nat) (gap : Option Nat) (drop : Nat → Nat → Bool) (frames : List Frame) (k : Nat)
    (hp : 0 < ports) (hgap : gap ≠ some 0) (hL : 2 ≤ frames.length ∨ (ports = 1 ∧ frames.length = 1))
    (hk : ∀ f, f < k → kept (drop f) 0 (round frames f) ≠ []) :
    replay ports gap drop frames k = some (expected ports drop frames k) := by
  unfold replay expected
  rw [List.range_eq_range']
  exact replayFrom_spec ports gap drop frames hgap (by rintro rfl; simp at hL) hp hL k {} 0 (Or.inl ⟨rfl, rfl⟩)
    (fun g _ h => hk g (by omega))

def tiny (f : Nat) : Frame := ⟨f, [⟨f, 0, true, false, [1]⟩, ⟨f, 1, false, true, [2]⟩]⟩

/-- C82 is false of the code: packet gap 0 divides by zero. -/
theorem C82_violated : ¬ C82_statement := by
  intro h
  exact absurd (h 1 (some 0) (fun _ _ => false) [tiny 0] 1 (by decide) (by decide)) (by decide +kernel)

/-- A single stored frame is always sent to the first port. -/
theorem C82_one_frame (ports : Nat) (gap : Option Nat) (drop : Nat → Nat → Bool) (fr : Frame) (k : Nat) (hgap : gap ≠ some 0) :
    ∃ l, replay ports gap drop [fr] k = some l ∧ ∀ x ∈ l, x.port = 0 := by
  have key : ∀ (k f : Nat), ∃ l, replayFrom ports gap drop [fr] {} f k = some l ∧ ∀ x ∈ l, x.port = 0 := by
    intro k
    induction k with
    | zero => intro f; exact ⟨[], rfl, fun x hx => (by cases hx)⟩
    | succ k ih =>
      intro f
      have hz : f % [fr].length = 0 := Nat.mod_one f
      have hnp : nextPort ports {} 0 = {} := rfl
      simp only [replayFrom]
      rw [hz]
      simp only [List.getElem?_cons_zero]
      rw [sendFrame_spec ports gap (drop f) 0 hgap]
      simp only [hnp, ite_self]
      obtain ⟨l, h1, h2⟩ := ih (f + 1)
      rw [h1]
      refine ⟨_, rfl, ?_⟩
      intro x hx
      rcases List.mem_append.1 hx with hx | hx
      · unfold keptFrom at hx
        obtain ⟨y, -, e⟩ := List.mem_map.1 hx
        rw [← e]
      · exact h2 x hx
  exact key k 0

/-- The port does not move on for a frame all of whose packets are dropped. -/
theorem C82_lost_frame : (replay 2 none (fun f _ => decide (f = 1)) [tiny 0, tiny 1, tiny 2] 3).map (·.map (fun x => (x.port, x.packet.frame))) =
    some [(0, 0), (0, 0), (1, 2), (1, 2)] ∧
    (expected 2 (fun f _ => decide (f = 1)) [tiny 0, tiny 1, tiny 2] 3).map (fun x => (x.port, x.packet.frame)) =
    [(0, 0), (0, 0), (0, 2), (0, 2)] := by decide +kernel

/-- Non-vacuity: two ports, three frames, four rounds, the second packet of frame 1 dropped. -/
example : ∀ f, f < 4 → kept ((fun f p => decide (f = 1 ∧ p = 1)) f) 0 (round [tiny 0, tiny 1, tiny 2] f) ≠ [] := by decide +kernel

example : (replay 2 (some 3) (fun f p => decide (f = 1 ∧ p = 1)) [tiny 0, tiny 1, tiny 2] 4).map
    (·.map (fun x => (x.port, x.packet.frame, x.packet.num))) =
    some [(0, 0, 0), (0, 0, 1), (1, 1, 0), (0, 2, 0), (0, 2, 1), (1, 0, 0), (1, 0, 1)] := by decide +kernel

end Verif.Simulator
