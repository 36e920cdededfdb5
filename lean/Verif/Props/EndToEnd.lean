import Verif.Model.EndToEnd
import Verif.Props.DecoderDelivery
import Verif.Props.DummyProcess
import Verif.Props.Throws
import Verif.Props.Placement
/-! Property C135: the pixels that arrive are in the file. -/
namespace Verif.EndToEnd
open Verif.Decoder (Ready Packet LogGood)
open Verif.Decoder.Spec (Ev World Every Regular Distinct Whole packetsOf)
open Verif.Pipeline.Spec (Keeps BloscLast isBlosc Lossless Bounded)

namespace Spec

/-- Byte `q` of the image of a frame of which the packets `l` (number, payload) arrived: the byte that was sent at this place, or
zero if its packet did not arrive. -/
def ByteOf (size : Nat) (bytes : Nat → List Nat) (l : List (Nat × Nat)) (q v : Nat) : Prop :=
  (∀ pay b, (q / size, pay) ∈ l → (bytes pay)[q % size]? = some b → v = b) ∧ (q / size ∉ l.map (·.1) → v = 0)

/-- Byte `q` of the frame at `slot`, of images `w` pixels of two bytes wide, is `v` for a reader of the file. -/
def FileByte (s : Setup) (w : Nat) (d : Layout.Ds Nat) (slot q v : Nat) : Prop :=
  ∃ l, Layout.element 0 (Pipeline.view s.codec (decide (s.comp = .blosc)) d) [slot, q / 2 / w, q / 2 % w] = some l ∧
    l[q % 2]? = some v

/-- The stage pushes every frame, with its image, compressed or not. -/
def Delivers : Pipeline.Stage → Prop
  | .pass keep => keep = true
  | .sum => True
  | .gapFill _ => False
  | .blosc .. => True

/-- The parts fit together: the receiver accepts its configuration, images of `w` by `h` pixels are not larger than the packets
of a frame nor than what the compressor takes, the dataset is for such images, the plugins deliver them, compressed at most
once, and there is one file. -/
structure Fitting (s : Setup) (w h : Nat) : Prop where
  accepted : s.rx.accepted = true
  width : s.image.width = w
  height : s.image.height = h
  fits : w * h * 2 ≤ s.rx.packets * s.rx.size
  small : w * h * 2 ≤ 2 ^ 31 - 17
  wpos : 0 < w
  hpos : 0 < h
  dims : s.dims = [h, w]
  dtype : s.dtype = .raw16
  way : ∀ t ∈ s.way, Delivers t
  last : BloscLast s.way
  comp : s.comp = if s.way.any isBlosc then .blosc else .no
  lossless : Lossless s.codec
  bounded : Bounded s.codec
  procs : 0 < s.geom.procs
  fpb : 0 < s.geom.fpb
  bpf : s.geom.bpf = 0
  adj : -2 ^ 62 ≤ s.adj ∧ s.adj ≤ 2 ^ 62

/-- The offset of a frame: its number, and what plugins on the way add to it. -/
def off (s : Setup) (f : Nat) : Nat := ((f : Int) + s.adj).toNat

/-- Where the frame is in the dataset. -/
def place (s : Setup) (f : Nat) : Nat := off s f / s.geom.fpb / s.geom.procs * s.geom.fpb + off s f % s.geom.fpb

/-- The frame has an offset that is not negative and belongs to this process, and the dataset has room for it. -/
def Mine (s : Setup) (unlimited : Bool) (frames f : Nat) : Prop :=
  0 ≤ (f : Int) + s.adj ∧ Placement.Spec.owner s.geom.procs s.geom.fpb (off s f) = (if s.geom.procs = 1 then 0 else s.geom.rank) ∧
    (unlimited = true ∨ place s f < frames)

end Spec
open Spec

/-- C135, full statement: if no packet is a duplicate or for a frame that has just timed out, every byte of every packet that was
handed on with its frame (numbers of 32 bits) is in the file, at the place of its pixel. -/
def C135_statement : Prop :=
  ∀ (s : Setup) (w h : Nat), Fitting s w h → ∀ (unlimited : Bool) (frames : Nat) (d : Layout.Ds Nat),
    Layout.create unlimited ⟨[h, w], [1, h, w], frames, 2⟩ = some d →
    ∀ (evs : List Ev) (W : World), Every s.rx (Regular s.rx) (Decoder.Spec.init s.rx) evs →
      Decoder.Spec.run s.rx (Decoder.Spec.init s.rx) evs = some W → (∀ x ∈ W.log, x.1.frame < 2 ^ 32) →
      ∃ d', deliverAll s d (W.log.map (·.1)) = some d' ∧
        ∀ p ∈ packetsOf evs, (∃ x ∈ W.log, x.1.frame = p.frame ∧ (p.num, p.pay) ∈ x.2) → Mine s unlimited frames p.frame →
          ∀ j b, (s.bytes p.pay)[j]? = some b → j < s.rx.size → p.num * s.rx.size + j < w * h * 2 →
            FileByte s w d' (place s p.frame) (p.num * s.rx.size + j) b

/-! ## The image -/

/-- The packets of a frame have different numbers. -/
def Apart (W : World) : Prop := (∀ f, ((W.rx f).map (·.1)).Nodup) ∧ ∀ x ∈ W.log, (x.2.map (·.1)).Nodup

theorem apart_hand (W : World) (s : Decoder.State) (rs : List Ready) (rx : Nat → List (Nat × Nat)) (h : Apart W)
    (hr : ∀ f, ((rx f).map (·.1)).Nodup) : Apart (W.hand s rs rx) := by
  constructor
  · intro f
    show ((if Decoder.lookup s.map f = none then [] else rx f).map (·.1)).Nodup
    split
    · exact List.nodup_nil
    · exact hr f
  · intro x hx
    rcases List.mem_append.1 hx with hx | hx
    · exact h.2 x hx
    · obtain ⟨r, _, e⟩ := List.mem_map.1 hx
      subst e
      exact hr _

theorem apart_run (c : Decoder.Cfg) (evs : List Ev) (W : World) (hp : Every c (Regular c) (Decoder.Spec.init c) evs)
    (hr : Decoder.Spec.run c (Decoder.Spec.init c) evs = some W) : Apart W := by
  have h0 : Apart (Decoder.Spec.init c) := ⟨fun _ => List.nodup_nil, fun x hx => (by cases hx)⟩
  refine Decoder.run_induct c (Regular c) Apart ?_ evs _ W h0 hp hr
  intro w w' e h hp hs
  cases e with
  | packet p now =>
    obtain ⟨r, _, e⟩ := Option.map_eq_some_iff.1 hs
    have := apart_hand w r.1 r.2 (Decoder.Spec.rxAdd w.rx p) h (by
      intro f
      unfold Decoder.Spec.rxAdd
      split
      · next he =>
        subst he
        rw [List.map_cons, List.nodup_cons]
        exact ⟨(hp p now rfl).2.2, h.1 _⟩
      · exact h.1 f)
    rw [← e]
    exact this
  | tick now =>
    obtain ⟨r, _, e⟩ := Option.map_eq_some_iff.1 hs
    rw [← e]
    exact apart_hand w r.1 r.2 w.rx h h.1
  | release b =>
    simp only [Decoder.Spec.step] at hs
    split at hs <;> cases hs <;> exact h

theorem apart_unique {l : List (Nat × Nat)} (h : (l.map (·.1)).Nodup) {k a b : Nat} (ha : (k, a) ∈ l) (hb : (k, b) ∈ l) :
    a = b := by
  induction l with
  | nil => cases ha
  | cons x l ih =>
    rw [List.map_cons, List.nodup_cons] at h
    rcases List.mem_cons.1 ha with ha | ha
    · rcases List.mem_cons.1 hb with hb | hb
      · rw [← ha] at hb; cases hb; rfl
      · rw [← ha] at h; exact absurd (List.mem_map.2 ⟨_, hb, rfl⟩) h.1
    · rcases List.mem_cons.1 hb with hb | hb
      · rw [← hb] at h; exact absurd (List.mem_map.2 ⟨_, ha, rfl⟩) h.1
      · exact ih h.2 ha hb

/-- The payload part of a buffer after the plugin has dealt with lost packets. -/
theorem lost_bytes (s : Setup) (x : Ready × List (Nat × Nat)) (ha : s.rx.accepted = true) (hg : LogGood s.rx x)
    (hn : (x.2.map (·.1)).Nodup) :
    ∃ p' n, DummyProcess.processLost (header s x.1) (memory s x.1) 0 = some (p', n) ∧ p'.size = s.rx.packets * s.rx.size ∧
      ∀ q, q < s.rx.packets * s.rx.size → ByteOf s.rx.size s.bytes x.2 q (p'.data q) := by
  obtain ⟨g, _, _⟩ := hg
  have hacc := ha
  unfold Decoder.Cfg.accepted at hacc
  rw [Bool.and_eq_true, decide_eq_true_eq, decide_eq_true_eq] at hacc
  have hpk : s.rx.packets ≤ DummyProcess.maxPackets := hacc.1
  have hlaid : DummyProcess.Spec.LaidOut (header s x.1) (memory s x.1) := ⟨hpk, by
    show s.rx.size * s.rx.packets ≤ s.rx.packets * s.rx.size
    rw [Nat.mul_comm]; exact Nat.le_refl _⟩
  have hle : x.1.buf.received ≤ s.rx.packets := by
    rw [g.received]; exact Decoder.length_le_of_below g.nodup g.below
  -- bytes of packets that arrived
  have hmem : ∀ q, q < s.rx.packets * s.rx.size → q / s.rx.size ∈ x.1.buf.got →
      ByteOf s.rx.size s.bytes x.2 q ((memory s x.1).data q) := by
    intro q _ hk
    have hpay := g.pay _ hk
    refine ⟨fun pay b hm hb => ?_, fun hne => absurd (List.mem_map.2 ⟨_, hpay, rfl⟩) hne⟩
    have e := apart_unique hn hm hpay
    subst e
    show (s.bytes _).getD _ _ = b
    rw [List.getD_eq_getElem?_getD, hb]
    rfl
  have hin : ∀ q, q < s.rx.packets * s.rx.size → 0 < s.rx.size ∧ q / s.rx.size < s.rx.packets ∧
      DummyProcess.Spec.InPacket (header s x.1) (q / s.rx.size) q := by
    intro q hq
    have hpos : 0 < s.rx.size := by
      rcases Nat.eq_zero_or_pos s.rx.size with h0 | h0
      · rw [h0, Nat.mul_zero] at hq; omega
      · exact h0
    refine ⟨hpos, Nat.div_lt_of_lt_mul (by rwa [Nat.mul_comm] at hq), ?_, ?_⟩
    · exact Nat.mul_div_le q _
    · exact Nat.lt_mul_div_succ q hpos
  rcases Nat.lt_or_ge x.1.buf.received s.rx.packets with hlt | hge
  · obtain ⟨p', e, hs, h1, h2⟩ := DummyProcess.C47_blanked_partial (header s x.1) (memory s x.1) 0 hlaid hlt
      (by have := DummyProcess.missing_le _ _ hlaid; unfold DummyProcess.maxPackets at this; omega)
    refine ⟨p', _, e, hs, fun q hq => ?_⟩
    obtain ⟨hpos, hk, hi⟩ := hin q hq
    by_cases hgot : q / s.rx.size ∈ x.1.buf.got
    · have : p'.data q = (memory s x.1).data q := by
        refine h2 q (fun k hm hi2 => ?_)
        have e : k = q / s.rx.size := by
          refine (Nat.div_eq_of_lt_le ?_ ?_).symm
          · have := hi2.1; rw [Nat.mul_comm]; exact this
          · have := hi2.2; rw [Nat.mul_comm]; exact this
        have := hm.2
        rw [e] at this
        replace this : (if q / s.rx.size ∈ x.1.buf.got then 1 else 0) = 0 := this
        rw [if_pos hgot] at this
        cases this
      rw [this]
      exact hmem q hq hgot
    · have hz : p'.data q = 0 := h1 _ q ⟨hk, by
        show (if q / s.rx.size ∈ x.1.buf.got then 1 else 0) = 0
        rw [if_neg hgot]⟩ hi
      rw [hz]
      exact ⟨fun pay b hm _ => absurd (g.all _ hm) hgot, fun _ => rfl⟩
  · have he : x.1.buf.received = s.rx.packets := by omega
    refine ⟨memory s x.1, 0, DummyProcess.C47_complete_untouched (header s x.1) (memory s x.1) 0 he, rfl, fun q hq => ?_⟩
    obtain ⟨_, hk, _⟩ := hin q hq
    exact hmem q hq (Decoder.all_of_length g.nodup g.below (by rw [← g.received, he]) _ hk)

theorem bytesOf_get (n : Nat) (d : Nat → Nat) (q : Nat) (h : q < n) : (Pipeline.bytesOf n d)[q]? = some (d q) := by
  simp [Pipeline.bytesOf, h]

/-- The frame the process plugin makes of a buffer handed on. -/
theorem made_of (s : Setup) (w h : Nat) (hf : Fitting s w h) (x : Ready × List (Nat × Nat)) (hg : LogGood s.rx x)
    (hn : (x.2.map (·.1)).Nodup) :
    ∃ f, made s x.1 = some f ∧ f.dtype = .raw16 ∧ f.dims = [h, w] ∧ f.comp = .no ∧ f.image.length = w * h * 2 ∧
      ∀ q, q < w * h * 2 → ∃ v, f.image[q]? = some v ∧ ByteOf s.rx.size s.bytes x.2 q v := by
  obtain ⟨p', n, e, hs, hb⟩ := lost_bytes s x hf.accepted hg hn
  have hlarge : w * h * 2 < 2 ^ 31 := by have := hf.small; omega
  have ho := DummyProcess.output_sized s.image (header s x.1).frameNumber p' w h hf.width hf.height (by omega)
  have hd : [s.image.height, s.image.width].map Pipeline.toDim = [h, w] := by
    rw [hf.width, hf.height]
    have : ∀ n : Nat, Pipeline.toDim n = n := fun n => by unfold Pipeline.toDim; rw [if_pos (by omega)]; omega
    simp [this]
  have hfit : w * h * 2 ≤ p'.size := by rw [hs]; exact hf.fits
  have hq : ∀ q, q < w * h * 2 → ByteOf s.rx.size s.bytes x.2 q (p'.data q) :=
    fun q hq => hb q (Nat.lt_of_lt_of_le hq hf.fits)
  unfold made DummyProcess.processFrame
  rw [e]
  simp only [DummyProcess.outputOf, ho, DummyProcess.outputSized]
  cases s.image.copyFrame with
  | true =>
    simp only [if_true, if_pos hfit, Pipeline.ofDummy, hd]
    exact ⟨_, rfl, rfl, rfl, rfl, Pipeline.bytesOf_length _ _, fun q hq' => ⟨_, bytesOf_get _ _ q hq', hq q hq'⟩⟩
  | false =>
    have ht : DummyProcess.toInt (w * h * 2) = ((w * h * 2 : Nat) : Int) := if_pos hlarge
    have hin : 0 ≤ ((w * h * 2 : Nat) : Int) ∧ w * h * 2 ≤ p'.size := ⟨by omega, hfit⟩
    simp only [Bool.false_eq_true, if_false, Pipeline.ofDummy, hd, ht, Int.toNat_natCast, if_pos hin]
    exact ⟨_, rfl, rfl, rfl, rfl, Pipeline.bytesOf_length _ _, fun q hq' => ⟨_, bytesOf_get _ _ q hq', hq q hq'⟩⟩

/-- Every frame handed on becomes an image with the bytes of the packets that arrived at their places and zeros for the others:
whatever the order of the packets, and whichever were lost. -/
theorem C135_frame (s : Setup) (w h : Nat) (hf : Fitting s w h) (evs : List Ev) (W : World)
    (hp : Every s.rx (Regular s.rx) (Decoder.Spec.init s.rx) evs)
    (hr : Decoder.Spec.run s.rx (Decoder.Spec.init s.rx) evs = some W) (x : Ready × List (Nat × Nat)) (hx : x ∈ W.log) :
    ∃ f, made s x.1 = some f ∧ f.dtype = .raw16 ∧ f.dims = [h, w] ∧ f.comp = .no ∧ f.image.length = w * h * 2 ∧
      ∀ q, q < w * h * 2 → ∃ v, f.image[q]? = some v ∧ ByteOf s.rx.size s.bytes x.2 q v :=
  made_of s w h hf x ((Decoder.run_inv s.rx hf.accepted evs W hp hr).log x hx) ((apart_run s.rx evs W hp hr).2 x hx)

/-! ## The way -/

section
attribute [local irreducible] Pipeline.maxBuffer

theorem sum_ok (f : Pipeline.Fr) (h : f.image.length < 2 ^ 31) : ∃ g, Pipeline.sumUp f = .pushed g := by
  unfold Pipeline.sumUp Sum.processFrame Sum.attach
  cases f.dtype <;> dsimp only <;> first
    | exact ⟨_, rfl⟩
    | (rw [Sum.calculateSum_small _ _ h]; exact ⟨_, rfl⟩)

theorem keeps_delivers (k : Pipeline.Codec) (l : List Pipeline.Stage) (hl : ∀ t ∈ l, Keeps t) (hd : ∀ t ∈ l, Delivers t) :
    ∀ f : Pipeline.Fr, f.image.length < 2 ^ 31 → ∃ g, Pipeline.run k l f = .pushed g := by
  induction l with
  | nil => intro f _; exact ⟨f, rfl⟩
  | cons t l ih =>
    intro f hf
    have ih := ih (fun x hx => hl x (List.mem_cons_of_mem _ hx)) (fun x hx => hd x (List.mem_cons_of_mem _ hx))
    have h1 := hl t List.mem_cons_self
    have h2 := hd t List.mem_cons_self
    cases t with
    | pass keep => cases h2; exact ih f hf
    | sum =>
      obtain ⟨g, hg⟩ := sum_ok f hf
      obtain ⟨p, hp⟩ := ih g (by rw [(Pipeline.sumUp_keeps hg).1]; exact hf)
      refine ⟨p, ?_⟩
      simp only [Pipeline.run, Pipeline.Stage.work, hg, Pipeline.Res.bind, hp]
    | gapFill c => exact absurd h1 id
    | blosc a b c => exact absurd h1 id

theorem keeps_not_blosc (l : List Pipeline.Stage) (hl : ∀ t ∈ l, Keeps t) : l.any isBlosc = false := by
  rw [List.any_eq_false]
  intro t ht
  have := hl t ht
  cases t with
  | blosc a b c => exact absurd this id
  | pass _ => simp [isBlosc]
  | sum => simp [isBlosc]
  | gapFill _ => simp [isBlosc]

/-- Along the way an image is kept, or compressed once. -/
theorem way_delivers (k : Pipeline.Codec) (hk : Lossless k) (hb : Bounded k) (l : List Pipeline.Stage) (hd : ∀ t ∈ l, Delivers t)
    (hl : BloscLast l) : ∀ f : Pipeline.Fr, f.dtype = .raw16 → f.comp = .no → f.image.length ≤ 2 ^ 31 - 17 →
    ∃ g, Pipeline.run k l f = .pushed g ∧ g.dims = f.dims ∧ g.dtype = f.dtype ∧
      g.comp = (if l.any isBlosc then .blosc else .no) ∧ Pipeline.seen k (decide (g.comp = .blosc)) g.image = f.image := by
  induction l with
  | nil => intro f _ hc _; exact ⟨f, rfl, rfl, rfl, hc, by rw [hc]; rfl⟩
  | cons t l ih =>
    intro f ht hc hm
    have hd' : ∀ t ∈ l, Delivers t := fun x hx => hd x (List.mem_cons_of_mem _ hx)
    have h2 := hd t List.mem_cons_self
    cases t with
    | pass keep =>
      cases h2
      exact ih hd' hl f ht hc hm
    | sum =>
      obtain ⟨g, hg⟩ := sum_ok f (by omega)
      obtain ⟨e1, e2, e3, e4, _⟩ := Pipeline.sumUp_keeps hg
      obtain ⟨p, hp, a1, a2, a3, a4⟩ := ih hd' hl g (by rw [e3, ht]) (by rw [e4, hc]) (by rw [e1]; exact hm)
      refine ⟨p, ?_, by rw [a1, e2], by rw [a2, e3], a3, by rw [a4, e1]⟩
      simp only [Pipeline.run, Pipeline.Stage.work, hg, Pipeline.Res.bind, hp]
    | gapFill c => exact absurd h2 id
    | blosc a b left =>
      have hmax : f.image.length ≤ Pipeline.maxBuffer := by rw [Pipeline.max_eq]; exact hm
      have e : Pipeline.compress k a b left f = .pushed ⟨f.dtype, f.dims, .blosc, k.enc a b 2 f.image,
          Pipeline.bytesOf (f.image.length + Pipeline.overhead - (k.enc a b 2 f.image).length) left, f.sum⟩ := by
        unfold Pipeline.compress
        rw [ht]
        show (if f.image.length > Pipeline.maxBuffer then _ else _) = _
        rw [if_neg (Nat.not_lt.mpr hmax)]
      generalize Pipeline.bytesOf (f.image.length + Pipeline.overhead - (k.enc a b 2 f.image).length) left = behind at e
      have hlen : (k.enc a b 2 f.image).length < 2 ^ 31 := by have := hb a b 2 f.image; omega
      obtain ⟨g, hg⟩ := keeps_delivers k l hl hd' ⟨f.dtype, f.dims, .blosc, k.enc a b 2 f.image, behind, f.sum⟩ hlen
      obtain ⟨a1, a2, a3, a4⟩ := Pipeline.keeps_run k l hl _ g hg
      refine ⟨g, ?_, a2, a3, ?_, ?_⟩
      · simp only [Pipeline.run, Pipeline.Stage.work, e, Pipeline.Res.bind, hg]
      · rw [a4]; simp [isBlosc]
      · rw [a4, a1]
        show (k.dec _).getD [] = _
        rw [hk a b 2 f.image hmax]
        rfl

end

/-! ## The file -/

/-- What a buffer handed on adds to the file. -/
def entryAt (s : Setup) (number : Nat) : Pipeline.Res → List (Nat × List Nat)
  | .pushed g => if valid s g && accepts s number then [(Placement.offsetInFile s.geom (offset s number), g.image)] else []
  | _ => []

def entry (s : Setup) (r : Ready) : List (Nat × List Nat) := (sent s r).elim [] (entryAt s r.buf.frame)

theorem arrive_entry (s : Setup) (d : Layout.Ds Nat) (n : Nat) (g : Pipeline.Fr) :
    arrive s n d (.pushed g) = some (Layout.run s.edge 1 d (entryAt s n (.pushed g))) := by
  simp only [arrive, acquire, entryAt]
  split <;> rfl

theorem deliver_entry (s : Setup) (d : Layout.Ds Nat) (r : Ready) (h : ∃ g, sent s r = some (.pushed g)) :
    deliver s d r = some (Layout.run s.edge 1 d (entry s r)) := by
  obtain ⟨g, h⟩ := h
  unfold deliver entry
  rw [h]
  exact arrive_entry s d _ g

theorem run_append (edge : Bool) (d : Layout.Ds Nat) (a b : List (Nat × List Nat)) :
    Layout.run edge 1 d (a ++ b) = Layout.run edge 1 (Layout.run edge 1 d a) b := List.foldl_append

theorem deliverAll_entries (s : Setup) (l : List Ready) (h : ∀ r ∈ l, ∃ g, sent s r = some (.pushed g)) :
    ∀ d, deliverAll s d l = some (Layout.run s.edge 1 d (l.flatMap (entry s))) := by
  induction l with
  | nil => intro d; rfl
  | cons r l ih =>
    intro d
    unfold deliverAll
    rw [deliver_entry s d r (h r List.mem_cons_self), List.flatMap_cons, run_append]
    exact ih (fun x hx => h x (List.mem_cons_of_mem _ hx)) _

theorem entryAt_slot (s : Setup) (n : Nat) (r : Pipeline.Res) (e : Nat × List Nat) (h : e ∈ entryAt s n r) :
    e.1 = Placement.offsetInFile s.geom (offset s n) ∧ accepts s n = true := by
  cases r with
  | pushed g =>
    simp only [entryAt] at h
    split at h
    · next hc =>
      rw [List.mem_singleton] at h
      subst h
      rw [Bool.and_eq_true] at hc
      exact ⟨rfl, hc.2⟩
    · cases h
  | dropped => cases h
  | threw => cases h
  | ub => cases h

theorem entry_slot (s : Setup) (r : Ready) (e : Nat × List Nat) (h : e ∈ entry s r) :
    e.1 = Placement.offsetInFile s.geom (offset s r.buf.frame) ∧ accepts s r.buf.frame = true := by
  unfold entry at h
  generalize sent s r = o at h
  cases o with
  | none => cases h
  | some x => exact entryAt_slot s _ x e h

theorem accepts_owner (g : Placement.Geom) (f : Nat) (hP : 0 < g.procs) :
    Placement.acceptsOffset g f = true ↔ Placement.Spec.owner g.procs g.fpb f = if g.procs = 1 then 0 else g.rank := by
  unfold Placement.acceptsOffset Placement.Spec.owner
  by_cases h : g.procs > 1
  · rw [if_pos h, if_neg (by omega), beq_iff_eq]
  · have e : g.procs = 1 := by omega
    rw [if_neg h, if_pos e, e, Nat.mod_one]
    simp

/-- The number that is computed for a frame, if it fits into an `int` and the offset is not negative. -/
theorem adjust_small (s : Setup) (f : Nat) (ha : -2 ^ 62 ≤ s.adj ∧ s.adj ≤ 2 ^ 62) (hf : f < 2 ^ 31) (h0 : 0 ≤ (f : Int) + s.adj) :
    Acq.adjustOffset f s.adj = some (off s f) := by
  have h1 : Acq.toInt32 f = f := by
    unfold Acq.toInt32
    dsimp only
    split <;> omega
  have h2 : Acq.toU64 (f : Int) = f := by unfold Acq.toU64; omega
  unfold Acq.adjustOffset
  rw [h1, if_neg (by omega), h2]
  unfold Acq.toU64 off
  rw [Int.emod_eq_of_lt h0 (by omega)]

/-- A frame whose number does not fit into an `int` has none, unless plugins add as much. -/
theorem adjust_large (s : Setup) (f : Nat) (h1 : 2 ^ 31 ≤ f) (h2 : f < 2 ^ 32) (h3 : (f : Int) + s.adj < 2 ^ 32) :
    Acq.adjustOffset f s.adj = none := by
  have h : Acq.toInt32 f = (f : Int) - 4294967296 := by
    unfold Acq.toInt32
    dsimp only
    split <;> omega
  unfold Acq.adjustOffset
  rw [h, if_pos (by omega)]

/-- A frame whose offset is negative has none either. -/
theorem adjust_negative (s : Setup) (f : Nat) (h1 : f < 2 ^ 31) (h2 : (f : Int) + s.adj < 0) : Acq.adjustOffset f s.adj = none := by
  have h : Acq.toInt32 f = f := by
    unfold Acq.toInt32
    dsimp only
    split <;> omega
  unfold Acq.adjustOffset
  rw [h, if_pos h2]

theorem accepts_small (s : Setup) (f : Nat) (ha : -2 ^ 62 ≤ s.adj ∧ s.adj ≤ 2 ^ 62) (hf : f < 2 ^ 31) (h0 : 0 ≤ (f : Int) + s.adj) :
    accepts s f = Placement.acceptsOffset s.geom (off s f) ∧ offset s f = off s f := by
  have h := adjust_small s f ha hf h0
  exact ⟨congrArg (acceptsAt s) h, congrArg (fun o : Option Nat => o.getD 0) h⟩

theorem accepts_offset (s : Setup) (f : Nat) (h : accepts s f = true) : Placement.acceptsOffset s.geom (offset s f) = true := by
  unfold accepts at h
  unfold offset
  generalize Acq.adjustOffset f s.adj = o at h
  cases o with
  | none => cases h
  | some n => exact h

theorem accepted_value (s : Setup) (P : Prop) [Decidable P] (o : Option Nat) (v : Nat) (h : o = if P then none else some v)
    (ha : acceptsAt s o = true) : o.getD 0 = v := by
  subst h
  split at ha
  · cases ha
  · next hc => rw [if_neg hc]; rfl

/-- Frames with different numbers have different offsets. -/
theorem offset_inj (s : Setup) (f g : Nat) (hf : f < 2 ^ 32) (hg : g < 2 ^ 32) (h1 : accepts s f = true) (h2 : accepts s g = true)
    (h : offset s f = offset s g) : f = g := by
  have key : ∀ n : Nat, n < 2 ^ 32 → accepts s n = true → offset s n = (((n : Int) + s.adj) % 18446744073709551616).toNat := by
    intro n hn ha
    have hd : Acq.adjustOffset n s.adj = if Acq.toInt32 n + s.adj < 0 then none else some (((n : Int) + s.adj) % 18446744073709551616).toNat := by
      have e : Acq.toU64 (n : Int) = n := by unfold Acq.toU64; omega
      unfold Acq.adjustOffset
      rw [e]
      rfl
    exact accepted_value s _ _ _ hd ha
  rw [key f hf h1, key g hg h2] at h
  omega

theorem place_at (s : Setup) (hb : s.geom.bpf = 0) (n : Nat) :
    Placement.offsetInFile s.geom n = n / s.geom.fpb / s.geom.procs * s.geom.fpb + n % s.geom.fpb := by
  have := Placement.offsetInFile_at s.geom.rank s.geom.procs s.geom.fpb s.geom.bpf n
  rw [if_pos hb] at this
  exact this

theorem place_eq (s : Setup) (hb : s.geom.bpf = 0) (f : Nat) : Placement.offsetInFile s.geom (off s f) = place s f := place_at s hb _

theorem slot_inj (s : Setup) (hP : 0 < s.geom.procs) (hB : 0 < s.geom.fpb) (hb : s.geom.bpf = 0) (f g : Nat)
    (hf : Placement.acceptsOffset s.geom f = true) (hg : Placement.acceptsOffset s.geom g = true)
    (h : Placement.offsetInFile s.geom f = Placement.offsetInFile s.geom g) : f = g := by
  rw [accepts_owner _ _ hP] at hf hg
  refine Placement.C02_injective_single_file s.geom.procs s.geom.fpb f g hP hB (by rw [hf, hg]) ?_
  rw [place_at s hb, place_at s hb] at h
  unfold Placement.ownerGeom
  rw [Placement.offsetInFile_at, Placement.offsetInFile_at, if_pos rfl, if_pos rfl]
  exact h

theorem place_inj (s : Setup) (hP : 0 < s.geom.procs) (hB : 0 < s.geom.fpb) (hb : s.geom.bpf = 0) (f g : Nat) (hf32 : f < 2 ^ 32)
    (hg32 : g < 2 ^ 32) (hf : accepts s f = true) (hg : accepts s g = true)
    (h : Placement.offsetInFile s.geom (offset s f) = Placement.offsetInFile s.geom (offset s g)) : f = g :=
  offset_inj s f g hf32 hg32 hf hg (slot_inj s hP hB hb _ _ (accepts_offset s f hf) (accepts_offset s g hg) h)

/-- A fixed dataset keeps its extent. -/
theorem run_fixed (edge : Bool) (d : Layout.Ds Nat) (hu : d.unlimited = false) (l : List (Nat × List Nat)) :
    (Layout.run edge 1 d l).dims = d.dims ∧ (Layout.run edge 1 d l).unlimited = false := by
  induction l generalizing d with
  | nil => exact ⟨rfl, hu⟩
  | cons f l ih =>
    have h1 : (Layout.write edge d 1 f.1 f.2).1.dims = d.dims ∧ (Layout.write edge d 1 f.1 f.2).1.unlimited = false := by
      have hg : Layout.grown d f.1 1 = d := by unfold Layout.grown; rw [hu]; rfl
      unfold Layout.write Layout.store
      rw [hg]
      split
      · exact ⟨rfl, hu⟩
      · exact ⟨rfl, hu⟩
    obtain ⟨a, b⟩ := ih _ h1.2
    exact ⟨by rw [Layout.run_cons, a, h1.1], by rw [Layout.run_cons]; exact b⟩

/-- A slot inside a fixed dataset is written. -/
theorem write_fixed (edge : Bool) (d : Layout.Ds Nat) {dims : List Nat} {size n slot : Nat} {img : List Nat}
    (h : Layout.Of dims (1 :: dims) size false d) (hn : d.dims = n :: dims) (hp : ∀ c ∈ dims, 0 < c) (hs : slot < n) :
    (Layout.write edge d 1 slot img).2 = true := by
  have hg : Layout.grown d slot 1 = d := by unfold Layout.grown; rw [h.unlimited]; rfl
  unfold Layout.write Layout.store
  rw [hg, h.chunk, hn]
  have ht : Layout.takes edge (Layout.offsetOf d slot 1) (n :: dims) (1 :: dims) = true := by
    unfold Layout.offsetOf
    rw [hn]
    simp only [List.length_cons, Nat.add_sub_cancel, Layout.takes, Bool.and_eq_true, Bool.or_eq_true, decide_eq_true_eq]
    exact ⟨⟨Or.inl (by omega), Nat.mod_one _⟩, Layout.takes_zero edge dims hp⟩
  rw [if_pos ht]

theorem last_split {α : Type} {l : List α} (P : α → Prop) (h : ∃ x ∈ l, P x) :
    ∃ l1 x l2, l = l1 ++ x :: l2 ∧ P x ∧ ∀ y ∈ l2, ¬ P y := by
  induction l with
  | nil => obtain ⟨x, hx, _⟩ := h; cases hx
  | cons a l ih =>
    by_cases hl : ∃ x ∈ l, P x
    · obtain ⟨l1, x, l2, e, h1, h2⟩ := ih hl
      exact ⟨a :: l1, x, l2, by rw [e]; rfl, h1, h2⟩
    · obtain ⟨x, hx, hP⟩ := h
      rcases List.mem_cons.1 hx with e | hx
      · subst e
        exact ⟨[], x, l, rfl, hP, fun y hy hPy => hl ⟨y, hy, hPy⟩⟩
      · exact absurd ⟨x, hx, hP⟩ hl

/-- The bytes of a pixel that reads back. -/
theorem pixel_byte (w h : Nat) (img : List Nat) (hi : img.length = w * h * 2) (q : Nat) (hq : q < w * h * 2) (v : Nat)
    (hv : img[q]? = some v) : (Layout.part 2 [1, h, w] [0, q / 2 / w, q / 2 % w] img)[q % 2]? = some v := by
  have hw : 0 < w := by
    rcases Nat.eq_zero_or_pos w with h0 | h0
    · rw [h0, Nat.zero_mul, Nat.zero_mul] at hq; omega
    · exact h0
  have h1 : q / 2 / w < h := by
    refine Nat.div_lt_of_lt_mul ?_
    omega
  have hin : Layout.inside [0, q / 2 / w, q / 2 % w] [1, h, w] = true := by
    simp [Layout.inside, h1, Nat.mod_lt _ hw]
  rw [Layout.part_eq 2 [1, h, w] _ img hin (by rw [hi]; simp [Layout.vol, Nat.mul_comm])]
  have hflat : Layout.flat [1, h, w] [0, q / 2 / w, q / 2 % w] = q / 2 := by
    simp only [Layout.flat, Layout.vol, Nat.zero_mul, Nat.zero_add, Nat.mul_one, Nat.add_zero]
    rw [Nat.mul_comm]
    exact Nat.div_add_mod _ _
  rw [hflat, List.getElem?_take_of_lt (by omega), List.getElem?_drop, ← hv]
  congr 1
  omega

/-- Every buffer handed on comes to the file writer, with its image. -/
theorem sent_all (s : Setup) (w h : Nat) (hf : Fitting s w h) (log : List (Ready × List (Nat × Nat)))
    (hlog : ∀ x ∈ log, LogGood s.rx x ∧ (x.2.map (·.1)).Nodup) :
    ∀ x ∈ log, ∃ f g : Pipeline.Fr, sent s x.1 = some (.pushed g) ∧ valid s g = true ∧
      f.image.length = w * h * 2 ∧ Pipeline.seen s.codec (decide (s.comp = .blosc)) g.image = f.image ∧
      ∀ q, q < w * h * 2 → ∃ v, f.image[q]? = some v ∧ ByteOf s.rx.size s.bytes x.2 q v := by
  intro x hx
  obtain ⟨f, h1, h2, h3, h4, h5, h6⟩ := made_of s w h hf x (hlog x hx).1 (hlog x hx).2
  obtain ⟨g, a1, a2, a3, a4, a5⟩ := way_delivers s.codec hf.lossless hf.bounded s.way hf.way hf.last f h2 h4
    (by rw [h5]; exact hf.small)
  rw [← hf.comp] at a4
  refine ⟨f, g, by unfold sent; rw [h1, Option.map_some, a1], ?_, h5, by rw [← a4]; exact a5, h6⟩
  unfold valid
  have hc : s.comp ≠ .unknown := by rw [hf.comp]; split <;> decide
  rw [a4, a3, h2, a2, h3, hf.dims, hf.dtype]
  simp [hc]

/-- The bytes of an image that is written to a slot and not written over are in the file. -/
theorem byte_at (s : Setup) (w h : Nat) (hw : 0 < w) (hh : 0 < h) (unlimited : Bool) (frames : Nat) (d : Layout.Ds Nat)
    (hcr : Layout.create unlimited ⟨[h, w], [1, h, w], frames, 2⟩ = some d) (before later : List (Nat × List Nat)) (slot : Nat)
    (stored image : List Nat) (hlast : ∀ e ∈ later, e.1 ≠ slot) (hroom : unlimited = true ∨ slot < frames)
    (hlen : image.length = w * h * 2) (hseen : Pipeline.seen s.codec (decide (s.comp = .blosc)) stored = image) (q v : Nat)
    (hq : q < w * h * 2) (hv1 : image[q]? = some v) :
    FileByte s w (Layout.after s.edge 1 d before slot stored later) slot q v := by
  obtain ⟨ho, _, hv, _, hdims, ha⟩ := Layout.create_of (c := 1) (cs := [h, w]) rfl hcr
  have hch : (if unlimited = true then 1 else Layout.clamp 1 frames) = 1 := by
    split
    · rfl
    · next hu =>
      have hfr : 0 < frames := by
        rcases hroom with h0 | h0
        · exact absurd h0 hu
        · omega
      unfold Layout.clamp
      rw [if_neg (by omega)]
  rw [hch] at ho
  have hpos : ∀ c ∈ [h, w], 0 < c := by
    intro c hc
    simp only [List.mem_cons, List.not_mem_nil, or_false] at hc
    rcases hc with e | e
    · rw [e]; exact hh
    · rw [e]; exact hw
  have hwr : (Layout.write s.edge (Layout.run s.edge 1 d before) 1 slot stored).2 = true ∧
      ∃ n, (Layout.after s.edge 1 d before slot stored later).dims = n :: [h, w] ∧ slot < n := by
    cases hu : unlimited with
    | true =>
      rw [hu] at ho
      obtain ⟨c1, n, c2, c3⟩ := Layout.C127_unlimited s.edge 1 (by decide) d ho hpos before later slot stored
      exact ⟨c1, n, c2, by omega⟩
    | false =>
      rw [hu] at ho hdims
      have hroom : slot < frames := by
        rcases hroom with h0 | h0
        · rw [hu] at h0; cases h0
        · exact h0
      have hb := Layout.run_of s.edge 1 d ho before
      have hd1 := run_fixed s.edge d ho.unlimited before
      have hdn : (Layout.run s.edge 1 d before).dims = frames :: [h, w] := by rw [hd1.1, hdims]; rfl
      refine ⟨write_fixed s.edge _ hb hdn hpos hroom, frames, ?_, hroom⟩
      have hd2 := run_fixed s.edge d ho.unlimited (before ++ (slot, stored) :: later)
      rw [run_append, Layout.run_cons, hdims] at hd2
      exact hd2.1
  obtain ⟨hw1, n, hn, hrow⟩ := hwr
  obtain ⟨c1, c2⟩ := Layout.after_lookup s.edge 1 (by decide) d ho before later slot stored hlast hw1
  have c3 : Layout.Of [h, w] (1 :: [h, w]) 2 unlimited (Pipeline.view s.codec (decide (s.comp = .blosc))
      (Layout.after s.edge 1 d before slot stored later)) := ⟨c1.dims, c1.chunk, c1.size, c1.unlimited⟩
  have hrb := Layout.reads_back 0 1 (by decide) _ c3 slot image
    (by rw [hlen]; simp [Layout.vol, Nat.mul_comm]) (by rw [Pipeline.view_lookup, c2, Option.map_some, hseen])
  have hy : q / 2 / w < h := by
    refine Nat.div_lt_of_lt_mul ?_
    omega
  have hel := hrb 0 [q / 2 / w, q / 2 % w] n (by decide)
    ((Layout.inside_iff _ _).1 (by simp [Layout.inside, hy, Nat.mod_lt _ hw])) hn (by omega)
  rw [Nat.mul_one, Nat.add_zero] at hel
  exact ⟨_, hel, pixel_byte w h image hlen q hq v hv1⟩

theorem byte_of (s : Setup) (w h : Nat) (hf : Fitting s w h) (unlimited : Bool) (frames : Nat) (d : Layout.Ds Nat)
    (hcr : Layout.create unlimited ⟨[h, w], [1, h, w], frames, 2⟩ = some d) (before later : List (Nat × List Nat)) (slot : Nat)
    (stored image : List Nat) (hlast : ∀ e ∈ later, e.1 ≠ slot) (hroom : unlimited = true ∨ slot < frames)
    (hlen : image.length = w * h * 2) (hseen : Pipeline.seen s.codec (decide (s.comp = .blosc)) stored = image) (q v : Nat)
    (hq : q < w * h * 2) (hv1 : image[q]? = some v) :
    FileByte s w (Layout.after s.edge 1 d before slot stored later) slot q v :=
  byte_at s w h hf.wpos hf.hpos unlimited frames d hcr before later slot stored image hlast hroom hlen hseen q v hq hv1

/-- The frame of `x`, if no frame with its number is handed on after it, is in the file, if all frames come to the file writer
with an image of the size of the dataset. -/
theorem file_any (s : Setup) (w h : Nat) (hw : 0 < w) (hh : 0 < h) (hP : 0 < s.geom.procs) (hB : 0 < s.geom.fpb)
    (hbpf : s.geom.bpf = 0) (hadj : -2 ^ 62 ≤ s.adj ∧ s.adj ≤ 2 ^ 62) (unlimited : Bool) (frames : Nat) (d : Layout.Ds Nat)
    (hcr : Layout.create unlimited ⟨[h, w], [1, h, w], frames, 2⟩ = some d) (log : List (Ready × List (Nat × Nat)))
    (R : Ready × List (Nat × Nat) → List Nat → Prop) (hframe : ∀ y ∈ log, y.1.buf.frame = y.1.frame) (h32 : ∀ y ∈ log, y.1.frame < 2 ^ 32)
    (hall : ∀ x ∈ log, ∃ (image : List Nat) (g : Pipeline.Fr), sent s x.1 = some (.pushed g) ∧ valid s g = true ∧
      image.length = w * h * 2 ∧ Pipeline.seen s.codec (decide (s.comp = .blosc)) g.image = image ∧ R x image) :
    ∃ d', deliverAll s d (log.map (·.1)) = some d' ∧
      ∀ l1 x l2, log = l1 ++ x :: l2 → (∀ y ∈ l2, y.1.frame ≠ x.1.frame) → Mine s unlimited frames x.1.frame →
        x.1.frame < 2 ^ 31 → ∃ image, R x image ∧ ∀ q v, q < w * h * 2 → image[q]? = some v → FileByte s w d' (place s x.1.frame) q v := by
  have hall' : ∀ r ∈ log.map (·.1), ∃ g, sent s r = some (.pushed g) := by
    intro r hr
    obtain ⟨x, hx, e⟩ := List.mem_map.1 hr
    obtain ⟨_, g, h1, _⟩ := hall x hx
    subst e
    exact ⟨g, h1⟩
  refine ⟨_, deliverAll_entries s _ hall' d, ?_⟩
  intro l1 x l2 hsplit hlater hmine h31
  have hx : x ∈ log := by rw [hsplit]; simp
  obtain ⟨image, g, h1, hval, hlen, hseen, hR⟩ := hall x hx
  obtain ⟨ha1, ha2⟩ := accepts_small s x.1.frame hadj h31 hmine.1
  have hacc : accepts s x.1.frame = true := by rw [ha1]; exact (accepts_owner _ _ hP).2 hmine.2.1
  have hentry : entry s x.1 = [(place s x.1.frame, g.image)] := by
    unfold entry
    rw [h1, hframe x hx]
    show (if valid s g && accepts s x.1.frame then _ else _) = _
    rw [hval, hacc, ha2, place_eq s hbpf]
    rfl
  have hlast : ∀ e ∈ (l2.map (·.1)).flatMap (entry s), e.1 ≠ place s x.1.frame := by
    intro e he heq
    obtain ⟨r, hr, he⟩ := List.mem_flatMap.1 he
    obtain ⟨y, hy, e1⟩ := List.mem_map.1 hr
    subst e1
    have hyl : y ∈ log := by rw [hsplit]; simp [hy]
    obtain ⟨b1, b2⟩ := entry_slot s y.1 e he
    rw [hframe y hyl] at b1 b2
    rw [b1, ← place_eq s hbpf, ← ha2] at heq
    exact hlater y hy (place_inj s hP hB hbpf _ _ (h32 y hyl) (h32 x hx) b2 hacc heq)
  have hrun : Layout.run s.edge 1 d ((log.map (·.1)).flatMap (entry s)) =
      Layout.after s.edge 1 d ((l1.map (·.1)).flatMap (entry s)) (place s x.1.frame) g.image ((l2.map (·.1)).flatMap (entry s)) := by
    rw [hsplit, List.map_append, List.map_cons, List.flatMap_append, List.flatMap_cons, hentry, run_append, run_append]
    rfl
  rw [hrun]
  exact ⟨image, hR, fun q v hq hv => byte_at s w h hw hh unlimited frames d hcr _ _ _ _ _ hlast hmine.2.2 hlen hseen q v hq hv⟩

/-- The frame of `x`, if no frame with its number is handed on after it, is in the file. -/
theorem file_of (s : Setup) (w h : Nat) (hf : Fitting s w h) (unlimited : Bool) (frames : Nat) (d : Layout.Ds Nat)
    (hcr : Layout.create unlimited ⟨[h, w], [1, h, w], frames, 2⟩ = some d) (log : List (Ready × List (Nat × Nat)))
    (hlog : ∀ x ∈ log, LogGood s.rx x ∧ (x.2.map (·.1)).Nodup) (h32 : ∀ x ∈ log, x.1.frame < 2 ^ 32) :
    ∃ d', deliverAll s d (log.map (·.1)) = some d' ∧
      ∀ l1 x l2, log = l1 ++ x :: l2 → (∀ y ∈ l2, y.1.frame ≠ x.1.frame) → Mine s unlimited frames x.1.frame →
        x.1.frame < 2 ^ 31 → ∀ q, q < w * h * 2 → ∃ v, FileByte s w d' (place s x.1.frame) q v ∧ ByteOf s.rx.size s.bytes x.2 q v := by
  obtain ⟨d', h1, h2⟩ := file_any s w h hf.wpos hf.hpos hf.procs hf.fpb hf.bpf hf.adj unlimited frames d hcr log
    (fun x image => ∀ q, q < w * h * 2 → ∃ v, image[q]? = some v ∧ ByteOf s.rx.size s.bytes x.2 q v)
    (fun y hy => (hlog y hy).1.1.frame) h32
    (fun x hx => by
      obtain ⟨f, g, a⟩ := sent_all s w h hf log hlog x hx
      exact ⟨f.image, g, a⟩)
  refine ⟨d', h1, fun l1 x l2 hsplit hlater hmine h31 q hq => ?_⟩
  obtain ⟨image, h3, h4⟩ := h2 l1 x l2 hsplit hlater hmine h31
  obtain ⟨v, h5, h6⟩ := h3 q hq
  exact ⟨v, h4 q v hq h5, h6⟩

/-- What holds: all bytes of the frame that was handed on last with its number are in the file as they were sent, and zeros for
the packets of it that did not arrive. Packets can come in any order, be lost, and frames time out. -/
theorem C135_partial (s : Setup) (w h : Nat) (hf : Fitting s w h) (unlimited : Bool) (frames : Nat) (d : Layout.Ds Nat)
    (hcr : Layout.create unlimited ⟨[h, w], [1, h, w], frames, 2⟩ = some d) (evs : List Ev) (W : World)
    (hp : Every s.rx (Regular s.rx) (Decoder.Spec.init s.rx) evs)
    (hr : Decoder.Spec.run s.rx (Decoder.Spec.init s.rx) evs = some W) (h32 : ∀ x ∈ W.log, x.1.frame < 2 ^ 32) :
    ∃ d', deliverAll s d (W.log.map (·.1)) = some d' ∧
      ∀ l1 x l2, W.log = l1 ++ x :: l2 → (∀ y ∈ l2, y.1.frame ≠ x.1.frame) → Mine s unlimited frames x.1.frame →
        x.1.frame < 2 ^ 31 → ∀ q, q < w * h * 2 → ∃ v, FileByte s w d' (place s x.1.frame) q v ∧ ByteOf s.rx.size s.bytes x.2 q v :=
  file_of s w h hf unlimited frames d hcr W.log (fun x hx =>
    ⟨(Decoder.run_inv s.rx hf.accepted evs W hp hr).log x hx, (apart_run s.rx evs W hp hr).2 x hx⟩) h32

/-- The same for a packet: every byte of every packet handed on with the last frame of its number. -/
theorem C135_packet (s : Setup) (w h : Nat) (hf : Fitting s w h) (unlimited : Bool) (frames : Nat) (d : Layout.Ds Nat)
    (hcr : Layout.create unlimited ⟨[h, w], [1, h, w], frames, 2⟩ = some d) (evs : List Ev) (W : World)
    (hp : Every s.rx (Regular s.rx) (Decoder.Spec.init s.rx) evs)
    (hr : Decoder.Spec.run s.rx (Decoder.Spec.init s.rx) evs = some W) (h32 : ∀ x ∈ W.log, x.1.frame < 2 ^ 32) :
    ∃ d', deliverAll s d (W.log.map (·.1)) = some d' ∧
      ∀ l1 x l2 num pay, W.log = l1 ++ x :: l2 → (∀ y ∈ l2, y.1.frame ≠ x.1.frame) → (num, pay) ∈ x.2 →
        Mine s unlimited frames x.1.frame → x.1.frame < 2 ^ 31 → ∀ j b, (s.bytes pay)[j]? = some b → j < s.rx.size →
          num * s.rx.size + j < w * h * 2 → FileByte s w d' (place s x.1.frame) (num * s.rx.size + j) b := by
  obtain ⟨d', h1, h2⟩ := C135_partial s w h hf unlimited frames d hcr evs W hp hr h32
  refine ⟨d', h1, fun l1 x l2 num pay e hl hm hmine h31 j b hb hj hq => ?_⟩
  obtain ⟨v, h3, h4⟩ := h2 l1 x l2 e hl hmine h31 _ hq
  have e1 : (num * s.rx.size + j) / s.rx.size = num := by
    rw [Nat.mul_comm, Nat.mul_add_div (by omega), Nat.div_eq_of_lt hj, Nat.add_zero]
  have e2 : (num * s.rx.size + j) % s.rx.size = j := by rw [Nat.mul_comm, Nat.mul_add_mod, Nat.mod_eq_of_lt hj]
  have := h4.1 pay b (by rw [e1]; exact hm) (by rw [e2]; exact hb)
  rw [← this]
  exact h3

/-- And nothing is lost if no frame times out, no packet comes twice and there are as many buffers as frames: every byte of every
packet of every frame whose packets all arrived is in the file, whatever the order in which they came. -/
theorem C135_whole (s : Setup) (w h : Nat) (hf : Fitting s w h) (unlimited : Bool) (frames : Nat) (d : Layout.Ds Nat)
    (hcr : Layout.create unlimited ⟨[h, w], [1, h, w], frames, 2⟩ = some d) (S : List Nat) (evs : List Ev)
    (hS : S.length ≤ s.rx.buffers) (h32 : ∀ f ∈ S, f < 2 ^ 32) (ht : ∀ now, Ev.tick now ∉ evs)
    (hp : ∀ p ∈ packetsOf evs, p.frame ∈ S ∧ p.frame ≠ 4294967295 ∧ p.num < s.rx.packets) (hd : Distinct (packetsOf evs)) :
    ∃ W d', Decoder.Spec.run s.rx (Decoder.Spec.init s.rx) evs = some W ∧ deliverAll s d (W.log.map (·.1)) = some d' ∧
      ∀ p ∈ packetsOf evs, Whole s.rx (packetsOf evs) p.frame → Mine s unlimited frames p.frame →
        p.frame < 2 ^ 31 → ∀ j b, (s.bytes p.pay)[j]? = some b → j < s.rx.size → p.num * s.rx.size + j < w * h * 2 →
          FileByte s w d' (place s p.frame) (p.num * s.rx.size + j) b := by
  have hP : 0 < s.rx.packets := by
    rcases Nat.eq_zero_or_pos s.rx.packets with h0 | h0
    · have h1 := hf.fits
      have := Nat.mul_pos (Nat.mul_pos hf.wpos hf.hpos) (show 0 < 2 by decide)
      rw [h0, Nat.zero_mul] at h1
      omega
    · exact h0
  obtain ⟨W, hr, honce, hwhole, _⟩ := Decoder.C83 s.rx S evs hf.accepted hP hS ht hp hd
  have hd' : Distinct ((packetsOf evs).reverse ++ []) := by
    unfold Distinct at hd ⊢
    rw [List.append_nil, List.map_reverse]
    exact (List.reverse_perm _).nodup_iff.2 hd
  obtain ⟨W', hr', h2⟩ := Decoder.deliv_run hf.accepted hS evs (Decoder.Spec.init s.rx) [] (Decoder.deliv_init s.rx S) ht
    (fun p hq => ⟨(hp p hq).1, (hp p hq).2.1⟩) hd' (fun p hq => (hp p (by simpa using hq)).2.2)
  rw [hr] at hr'
  cases hr'
  rw [List.append_nil] at h2 hd'
  obtain ⟨d', h3, h4⟩ := file_of s w h hf unlimited frames d hcr W.log (fun x hx => ⟨h2.inv.log x hx, by
    rw [(h2.log x hx).2.2.2.1]; exact Decoder.ofFrame_nodup _ hd'⟩) (fun x hx => h32 _ (h2.log x hx).1)
  refine ⟨W, d', hr, h3, fun p hpm hw hmine h31 j b hb hj hq => ?_⟩
  obtain ⟨x, hx, e⟩ := List.mem_map.1 ((hwhole p.frame).2 hw)
  obtain ⟨l1, l2, hsplit⟩ := List.append_of_mem hx
  have hlater : ∀ y ∈ l2, y.1.frame ≠ x.1.frame := by
    intro y hy he
    rw [hsplit, List.map_append, List.map_cons] at honce
    have := (List.nodup_cons.1 (List.nodup_append.1 honce).2.1).1
    exact this (List.mem_map.2 ⟨y, hy, he⟩)
  have hin : (p.num, p.pay) ∈ x.2 := by
    rw [(h2.log x hx).2.2.2.1, e]
    exact Decoder.mem_ofFrame.2 (List.mem_reverse.2 hpm)
  obtain ⟨v, h5, h6⟩ := h4 l1 x l2 hsplit hlater (by rw [e]; exact hmine) (by rw [e]; exact h31) _ hq
  have e1 : (p.num * s.rx.size + j) / s.rx.size = p.num := by
    rw [Nat.mul_comm, Nat.mul_add_div (by omega), Nat.div_eq_of_lt hj, Nat.add_zero]
  have e2 : (p.num * s.rx.size + j) % s.rx.size = j := by rw [Nat.mul_comm, Nat.mul_add_mod, Nat.mod_eq_of_lt hj]
  have := h6.1 p.pay b (by rw [e1]; exact hin) (by rw [e2]; exact hb)
  rw [← this, ← e]
  exact h5

/-! ## Where it fails -/

/-- Two packets of one pixel to a frame; the sum, then the compressor that puts a byte in front. -/
def exSetup : Setup where
  rx := ⟨2, 2, 3, 1000⟩
  image := ⟨2, 1, true⟩
  codec := Pipeline.exCodec
  way := [.sum, .blosc 1 2 (fun _ => 0), .pass true]
  geom := ⟨0, 1, 1, 0⟩
  edge := false
  dims := [1, 2]
  dtype := .raw16
  comp := .blosc
  bytes := fun n => [n, n + 1]
  old := fun _ _ => 99

theorem exFitting : Fitting exSetup 2 1 where
  accepted := by decide
  width := rfl
  height := rfl
  fits := by decide
  small := by decide
  wpos := by decide
  hpos := by decide
  dims := rfl
  dtype := rfl
  way := by
    intro t ht
    simp only [exSetup, List.mem_cons, List.not_mem_nil, or_false] at ht
    rcases ht with rfl | rfl | rfl
    · trivial
    · trivial
    · rfl
  last := by
    show ∀ t ∈ [Pipeline.Stage.pass true], Keeps t
    intro t ht
    rw [List.mem_singleton] at ht
    subst ht
    trivial
  comp := rfl
  lossless := Pipeline.exCodec_lossless
  bounded := by intro _ _ _ x; show (0 :: x).length ≤ _; rw [List.length_cons]; omega
  procs := by decide
  fpb := by decide
  bpf := rfl
  adj := by decide

/-- Frame 0 times out after its first packet; its second packet comes after one of another frame, and it times out again. -/
def late : List Ev :=
  [.packet ⟨0, 0, 7⟩ 0, .packet ⟨1, 0, 9⟩ 1, .tick 2000000000, .packet ⟨2, 0, 5⟩ 2000000001, .release 0,
    .packet ⟨0, 1, 20⟩ 2000000002, .tick 5000000000]

def exDs : Layout.Ds Nat := ⟨true, [1, 1, 2], [1, 1, 2], 2, []⟩

theorem late_regular : Every exSetup.rx (Regular exSetup.rx) (Decoder.Spec.init exSetup.rx) late :=
  Decoder.every_of_everyB _ _ _ (Decoder.regular_of_bool _) _ _ (by decide +kernel)

theorem late_log : (Decoder.Spec.run exSetup.rx (Decoder.Spec.init exSetup.rx) late).map (fun W =>
      W.log.map (fun x => (x.1.frame, x.2))) =
    some [(1, [(0, 9)]), (0, [(0, 7)]), (0, [(1, 20)]), (2, [(0, 5)])] := by decide +kernel

/-- Pixel `x` of frame 0 in the file after the first `n` frames were handed on. -/
def pixelAfter (n x : Nat) : Option (Option (List Nat)) :=
  (Decoder.Spec.run exSetup.rx (Decoder.Spec.init exSetup.rx) late).bind (fun W =>
    (deliverAll exSetup exDs ((W.log.take n).map (·.1))).map (fun d =>
      Layout.element 0 (Pipeline.view exSetup.codec true d) [0, 0, x]))

/-- The first pixel of frame 0 has been in the file, and is gone. -/
theorem C135_overwritten : pixelAfter 2 0 = some (some [7, 8]) ∧ pixelAfter 4 0 = some (some [0, 0]) ∧
    pixelAfter 4 1 = some (some [20, 21]) := by decide +kernel

/-- C135 is false of the code: a late packet opens its frame a second time, and the file gets zeros for all the packets that had
been handed on, and written, before. -/
theorem C135_violated : ¬ C135_statement := by
  intro hst
  have hl := late_log
  have hpx := C135_overwritten.2.1
  cases hr : Decoder.Spec.run exSetup.rx (Decoder.Spec.init exSetup.rx) late with
  | none => rw [hr] at hl; cases hl
  | some W =>
    rw [hr, Option.map_some] at hl
    injection hl with h1
    obtain ⟨d', e, hd⟩ := hst exSetup 2 1 exFitting true 0 exDs rfl late W late_regular hr (by
      intro x hx
      have : (x.1.frame, x.2) ∈ W.log.map (fun x => (x.1.frame, x.2)) := List.mem_map.2 ⟨x, hx, rfl⟩
      rw [h1] at this
      simp only [List.mem_cons, List.not_mem_nil, or_false, Prod.mk.injEq] at this
      omega)
    have hlen : W.log.take 4 = W.log := by
      have := congrArg List.length h1
      rw [List.length_map] at this
      exact List.take_of_length_le (by rw [this]; decide)
    unfold pixelAfter at hpx
    rw [hr, Option.bind_some, hlen, e, Option.map_some] at hpx
    injection hpx with h4
    have hx : ∃ x ∈ W.log, x.1.frame = 0 ∧ (0, 7) ∈ x.2 := by
      have : ((0, [(0, 7)]) : Nat × List (Nat × Nat)) ∈ W.log.map (fun x => (x.1.frame, x.2)) := by rw [h1]; simp
      obtain ⟨x, hx, ex⟩ := List.mem_map.1 this
      obtain ⟨e1, e2⟩ := Prod.mk.inj ex
      exact ⟨x, hx, e1, by rw [e2]; simp⟩
    obtain ⟨l, h5, h6⟩ := hd ⟨0, 0, 7⟩ (by decide) hx ⟨by decide, by decide, Or.inl rfl⟩ 0 7 rfl (by decide) (by decide)
    replace h5 : Layout.element 0 (Pipeline.view exSetup.codec true d') [0, 0, 0] = some l := h5
    rw [h4] at h5
    injection h5 with h5
    rw [← h5] at h6
    revert h6
    decide

/-- Non-vacuity: the late packets of frame 0 and the frames 1 and 2 are as `C135_partial` says; and packets of two frames that
come mixed up, of which `C135_whole` speaks. -/
def mixed : List Ev := [.packet ⟨1, 1, 30⟩ 0, .packet ⟨0, 1, 20⟩ 1, .packet ⟨1, 0, 40⟩ 2, .packet ⟨0, 0, 10⟩ 3]

example : [0, 1].length ≤ exSetup.rx.buffers ∧
    (∀ p ∈ packetsOf mixed, p.frame ∈ [0, 1] ∧ p.frame ≠ 4294967295 ∧ p.num < exSetup.rx.packets) ∧
    ((packetsOf mixed).map (fun p => (p.frame, p.num))).Nodup := by decide

example : (Decoder.Spec.run exSetup.rx (Decoder.Spec.init exSetup.rx) mixed).map (fun W =>
      (deliverAll exSetup exDs (W.log.map (·.1))).map (fun d =>
        [[0, 0, 0], [0, 0, 1], [1, 0, 0], [1, 0, 1]].map (Layout.element 0 (Pipeline.view exSetup.codec true d)))) =
    some (some [some [10, 11], some [20, 21], some [40, 41], some [30, 31]]) := by decide +kernel

example : Layout.create true ⟨[1, 2], [1, 1, 2], 0, 2⟩ = some exDs ∧ Mine exSetup true 0 5 ∧ place exSetup 5 = 5 :=
  ⟨rfl, ⟨by decide, by decide, Or.inl rfl⟩, by decide⟩

/-- A frame that a plugin keeps to itself changes nothing in the file, and the frames after it are written as without it. -/
theorem C135_dropped (s : Setup) (d : Layout.Ds Nat) (r : Ready) (l : List Ready) (h : sent s r = some .dropped) :
    deliver s d r = some d ∧ deliverAll s d (r :: l) = deliverAll s d l := by
  have h1 : deliver s d r = some d := by simp [deliver, h, arrive]
  exact ⟨h1, by simp [deliverAll, h1]⟩

example : (Decoder.Spec.run exSetup.rx (Decoder.Spec.init exSetup.rx) mixed).map (fun W =>
      W.log.map (fun r => sent { exSetup with way := [.pass false] } r.1)) = some [some .dropped, some .dropped] := by
  decide +kernel

/-- A frame whose number does not fit into an `int`: whatever its packets, it is not written, unless plugins add as much to its
offset. -/
theorem C135_large (s : Setup) (d : Layout.Ds Nat) (r : Ready) (hs : ∃ g, sent s r = some (.pushed g)) (h1 : 2 ^ 31 ≤ r.buf.frame)
    (h2 : r.buf.frame < 2 ^ 32) (h3 : (r.buf.frame : Int) + s.adj < 2 ^ 32) : deliver s d r = some d := by
  obtain ⟨g, hg⟩ := hs
  have ha : accepts s r.buf.frame = false := congrArg (acceptsAt s) (adjust_large s _ h1 h2 h3)
  unfold deliver
  rw [hg]
  show some (acquire s r.buf.frame g d) = some d
  unfold acquire
  rw [ha, Bool.and_false]
  rfl

/-- A complete frame with such a number; the one before it is in the file. -/
def large : List Ev :=
  [.packet ⟨2147483648, 1, 30⟩ 0, .packet ⟨2147483648, 0, 40⟩ 1, .packet ⟨3, 1, 30⟩ 2, .packet ⟨3, 0, 40⟩ 3]

/-- What is stored after these packets, with an offset of `adj`: the slots. -/
def slotsOf (adj : Int) : Option (Option (List (List Nat))) :=
  (Decoder.Spec.run exSetup.rx (Decoder.Spec.init exSetup.rx) large).map (fun W =>
    (deliverAll { exSetup with adj := adj } exDs (W.log.map (·.1))).map (fun d => d.stored.map (·.1)))

example : slotsOf 0 = some (some [[3, 0, 0]]) ∧ slotsOf (-2) = some (some [[1, 0, 0]]) ∧ slotsOf (-4) = some (some []) := by
  decide +kernel

end Verif.EndToEnd
