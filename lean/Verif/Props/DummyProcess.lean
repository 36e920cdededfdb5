import Verif.Model.DummyProcess
/-! Properties C47 (lost packets are blanked) and C59 (the output image of the dummy detector). -/
namespace Verif.DummyProcess

namespace Spec

/-- The byte belongs to packet `k`. -/
def InPacket (h : Header) (k b : Nat) : Prop := h.packetSize * k ≤ b ∧ b < h.packetSize * (k + 1)

/-- The packet is missing. -/
def Missing (h : Header) (k : Nat) : Prop := k < h.expected ∧ h.state k = 0

/-- Number of missing packets. -/
def missing (h : Header) : Nat := ((List.range h.expected).filter (fun k => h.state k == 0)).length

/-- The frame is as the receiver lays it out: at most `max_packets` packets, all within the payload. -/
def LaidOut (h : Header) (p : Buf) : Prop := h.expected ≤ maxPackets ∧ h.packetSize * h.expected ≤ p.size

end Spec
open Spec

theorem scan_spec (h : Header) (p : Buf) (hl : LaidOut h p) : ∀ n, n ≤ h.expected → ∃ d,
    scan h p n = some (d, ((List.range n).filter (fun k => h.state k == 0)).length) ∧
    (∀ k b, k < n → h.state k = 0 → InPacket h k b → d b = 0) ∧
    (∀ b, (∀ k, k < n → h.state k = 0 → ¬ InPacket h k b) → d b = p.data b) := by
  intro n
  induction n with
  | zero => intro _; exact ⟨p.data, rfl, fun k b hk => absurd hk (Nat.not_lt_zero k), fun b _ => rfl⟩
  | succ n ih =>
    intro hn
    obtain ⟨d, e, h1, h2⟩ := ih (by omega)
    have hm : ¬ n ≥ maxPackets := by have := hl.1; omega
    have hp : h.packetSize * n + h.packetSize ≤ p.size := by
      have : h.packetSize * (n + 1) ≤ h.packetSize * h.expected := Nat.mul_le_mul_left _ hn
      have h2 := hl.2
      rw [Nat.mul_add, Nat.mul_one] at this; omega
    have hf : ((List.range (n + 1)).filter (fun k => h.state k == 0)).length
        = ((List.range n).filter (fun k => h.state k == 0)).length + (if h.state n = 0 then 1 else 0) := by
      rw [List.range_succ, List.filter_append, List.length_append]
      congr 1
      by_cases hz : h.state n = 0 <;> simp [hz]
    have hu : scan h p (n + 1) = if n ≥ maxPackets then none
      else if h.state n = 0 then
        if h.packetSize * n + h.packetSize ≤ p.size then
          some (zeroed d (h.packetSize * n) h.packetSize, ((List.range n).filter (fun k => h.state k == 0)).length + 1)
        else none
      else some (d, ((List.range n).filter (fun k => h.state k == 0)).length) := by
      conv => lhs; unfold scan
      rw [e]
    rw [hu, if_neg hm, hf]
    have hin : ∀ b, InPacket h n b ↔ h.packetSize * n ≤ b ∧ b < h.packetSize * n + h.packetSize := by
      intro b; unfold InPacket; rw [Nat.mul_add, Nat.mul_one]
    by_cases hz : h.state n = 0
    · rw [if_pos hz, if_pos hp, if_pos hz]
      refine ⟨_, rfl, ?_, ?_⟩
      · intro k b hk hs hib
        show (if _ then _ else _) = _
        by_cases hc : h.packetSize * n ≤ b ∧ b < h.packetSize * n + h.packetSize
        · rw [if_pos hc]
        · rw [if_neg hc]
          have : k ≠ n := by rintro rfl; exact hc ((hin b).1 hib)
          exact h1 k b (by omega) hs hib
      · intro b hb
        show (if _ then _ else _) = _
        rw [if_neg (fun hc => hb n (by omega) hz ((hin b).2 hc))]
        exact h2 b (fun k hk hs => hb k (by omega) hs)
    · rw [if_neg hz, if_neg hz]
      refine ⟨d, rfl, ?_, ?_⟩
      · intro k b hk hs hib
        have : k ≠ n := by rintro rfl; exact hz hs
        exact h1 k b (by omega) hs hib
      · intro b hb
        exact h2 b (fun k hk hs => hb k (by omega) hs)

theorem sub_mod (e r M : Nat) (h : r < e) (he : e < M) : (e + M - r) % M = e - r := by
  rw [show e + M - r = (e - r) + M by omega, Nat.add_mod_right]
  exact Nat.mod_eq_of_lt (by omega)

theorem hdrLost_pos (h : Header) (he : h.expected < 2 ^ 31) (hr : h.received < h.expected) : hdrLost h > 0 := by
  unfold hdrLost
  dsimp only
  rw [sub_mod _ _ _ hr (by omega), if_pos (by omega)]
  omega

theorem missing_le (h : Header) (p : Buf) (hl : LaidOut h p) : missing h ≤ maxPackets := by
  have := List.length_filter_le (fun k => h.state k == 0) (List.range h.expected)
  rw [List.length_range] at this
  exact Nat.le_trans this hl.1

/-- C47, full statement: in every frame, every byte of every missing packet is zeroed, every byte outside missing packets is unchanged, and
the counter grows by the number of missing packets. -/
def C47_statement : Prop :=
  ∀ (h : Header) (p : Buf) (lost : Nat), LaidOut h p → ∃ p', processLost h p lost = some (p', lost + missing h) ∧
    (∀ k b, Missing h k → InPacket h k b → p'.data b = 0) ∧
    (∀ b, (∀ k, Missing h k → ¬ InPacket h k b) → p'.data b = p.data b)

/-- C47, proved part: in a frame with fewer packets received than expected, every byte of every missing packet is zeroed,
every byte outside missing packets is unchanged, the counter grows by the number of missing packets, and
nothing outside the frame is touched. -/
theorem C47_blanked_partial (h : Header) (p : Buf) (lost : Nat) (hl : LaidOut h p) (hr : h.received < h.expected) (hc : lost + missing h < 2 ^ 31) :
    ∃ p', processLost h p lost = some (p', lost + missing h) ∧ p'.size = p.size ∧
      (∀ k b, Missing h k → InPacket h k b → p'.data b = 0) ∧
      (∀ b, (∀ k, Missing h k → ¬ InPacket h k b) → p'.data b = p.data b) := by
  obtain ⟨d, e, h1, h2⟩ := scan_spec h p hl h.expected (Nat.le_refl _)
  refine ⟨{ p with data := d }, ?_, rfl, ?_, ?_⟩
  · unfold processLost
    rw [if_pos (hdrLost_pos h (by have := hl.1; unfold maxPackets at this; omega) hr), e]
    exact if_pos hc
  · intro k b hm hb; exact h1 k b hm.1 hm.2 hb
  · intro b hb; exact h2 b (fun k hk hs => hb k ⟨hk, hs⟩)

/-- C47: received packets stay as they are, byte for byte. -/
theorem C47_received_partial (h : Header) (p : Buf) (lost : Nat) (hl : LaidOut h p)
    (hr : h.received < h.expected) (hc : lost + missing h < 2 ^ 31) (k b : Nat) (hs : h.state k ≠ 0) (hb : InPacket h k b) :
    ∃ p' l', processLost h p lost = some (p', l') ∧ p'.data b = p.data b := by
  obtain ⟨p', e, _, _, h3⟩ := C47_blanked_partial h p lost hl hr hc
  refine ⟨p', _, e, h3 b ?_⟩
  intro j hj hjb
  have hpos : 0 < h.packetSize := by
    rcases Nat.eq_zero_or_pos h.packetSize with h0 | h0
    · have := hb.2; rw [h0, Nat.zero_mul] at this; omega
    · exact h0
  have hq : ∀ i, InPacket h i b → b / h.packetSize = i := by
    intro i hi
    obtain ⟨q1, q2⟩ := hi
    rw [Nat.mul_comm] at q1 q2
    exact Nat.div_eq_of_lt_le q1 q2
  have : j = k := (hq j hjb).symm.trans (hq k hb)
  subst this
  exact hs hj.2

/-- C47: a frame with no packets missing according to its header is left alone and not counted. -/
theorem C47_complete_untouched (h : Header) (p : Buf) (lost : Nat) (hr : h.received = h.expected) :
    processLost h p lost = some (p, lost) := by
  unfold processLost
  have : hdrLost h = 0 := by
    unfold hdrLost
    dsimp only
    rw [hr, Nat.add_sub_cancel_left, Nat.mod_self, if_pos (by omega)]
    rfl
  rw [this, if_neg (by omega)]

/-- Recorded: when a duplicate packet makes the counts agree (the receiver counts duplicates), the missing
packet is not blanked. -/
theorem C47_duplicate_hides_missing : ∃ (h : Header) (p : Buf), LaidOut h p ∧ Missing h 1 ∧ InPacket h 1 2 ∧
    ∃ p', processLost h p 0 = some (p', 0) ∧ p'.data 2 = 99 := by
  refine ⟨⟨0, 2, 2, 2, fun k => if k = 0 then 1 else 0⟩, ⟨4, fun _ => 99⟩, ⟨by decide, by decide⟩, ⟨by decide, rfl⟩,
    ⟨by decide, by decide⟩, ⟨4, fun _ => 99⟩, C47_complete_untouched _ _ _ rfl, rfl⟩

/-- So the full claim is false of the code. -/
theorem C47_violated : ¬ C47_statement := by
  intro h
  obtain ⟨hd, p, hl, hm, hi, p1, e1, h1⟩ := C47_duplicate_hides_missing
  obtain ⟨p2, e2, h2, _⟩ := h hd p 0 hl
  rw [e1] at e2
  simp only [Option.some.injEq, Prod.mk.injEq] at e2
  have := h2 1 2 hm hi
  rw [← e2.1, h1] at this
  cases this

/-- Recorded: a header that announces more than `max_packets` packets makes the scan leave the state array. -/
theorem C47_too_many_ub (h : Header) (p : Buf) (lost : Nat) (he : h.expected > maxPackets)
    (he' : h.expected < 2 ^ 31) (hr : h.received < h.expected) : processLost h p lost = none := by
  have hscan : ∀ n, n > maxPackets → scan h p n = none := by
    intro n
    induction n with
    | zero => intro hn; exact absurd hn (Nat.not_lt_zero _)
    | succ n ih =>
      intro hn
      unfold scan
      by_cases hm : n > maxPackets
      · rw [ih hm]
      · cases scan h p n with
        | none => rfl
        | some x => obtain ⟨d, l⟩ := x; dsimp only; rw [if_pos (by omega)]
  have hlost := hdrLost_pos h he' hr
  unfold processLost
  rw [if_pos hlost, hscan _ he]

/-- Recorded: the counter is an `int` that is never reset but by a command, and overflows at 2^31 lost packets. -/
theorem C47_counter_ub (h : Header) (p : Buf) (lost : Nat) (hl : LaidOut h p) (hr : h.received < h.expected) (hc : 2 ^ 31 ≤ lost + missing h) :
    processLost h p lost = none := by
  obtain ⟨d, e, -, -⟩ := scan_spec h p hl h.expected (Nat.le_refl _)
  unfold processLost
  rw [if_pos (hdrLost_pos h (by have := hl.1; unfold maxPackets at this; omega) hr), e]
  exact if_neg (Nat.not_lt.2 hc)

/-! ## C59 -/

theorem output_sized (c : Cfg) (n : Nat) (p : Buf) (w ht : Nat) (hw : c.width = w) (hh : c.height = ht) (hs : w * ht < 2 ^ 31) :
    output c n p = outputSized c n p (w * ht) := by
  have hprod : c.width * c.height = ((w * ht : Nat) : Int) := by rw [hw, hh]; push_cast; rfl
  have e : product c = some ((w * ht : Nat) : Int) := by
    unfold product
    rw [hprod]
    exact if_pos ⟨by omega, by omega⟩
  unfold output
  rw [e]
  show (if ((w * ht : Nat) : Int) < 0 then _ else _) = _
  rw [if_neg (by omega), Int.toNat_natCast]

/-- C59, proved part: if the configured image lies within the frame and is smaller than 2 GiB, the frame is passed on with its frame
number and the configured dimensions, and the image is the (blanked) payload from its start, `2 * width *
height` bytes, in both modes. Missing: larger images, see `C59_violated`. -/
theorem C59_partial (c : Cfg) (h : Header) (p : Buf) (lost : Nat) (w ht : Nat) (hw : c.width = w)
    (hh : c.height = ht) (hl : LaidOut h p) (hr : h.received ≤ h.expected) (hs : w * ht * 2 ≤ p.size) (hi : w * ht * 2 < 2 ^ 31)
    (hc : lost + missing h < 2 ^ 31) :
    ∃ p' l', processLost h p lost = some (p', l') ∧
      (c.copyFrame = true → processFrame c h p lost
        = (.copied h.frameNumber [c.height, c.width] { size := w * ht * 2, data := p'.data }, l')) ∧
      (c.copyFrame = false → processFrame c h p lost
        = (.inPlace h.frameNumber [c.height, c.width] (w * ht * 2 : Nat) p', l')) := by
  have hlost : ∃ p' l', processLost h p lost = some (p', l') ∧ p'.size = p.size := by
    rcases Nat.lt_or_ge h.received h.expected with h1 | h1
    · obtain ⟨p', e, hs', _⟩ := C47_blanked_partial h p lost hl h1 hc
      exact ⟨p', _, e, hs'⟩
    · exact ⟨p, lost, C47_complete_untouched h p lost (by omega), rfl⟩
  obtain ⟨p', l', e, hsz⟩ := hlost
  have ho := output_sized c h.frameNumber p' w ht hw hh (by omega)
  refine ⟨p', l', e, ?_, ?_⟩
  · intro hc
    have hs' : w * ht * 2 ≤ p'.size := by rw [hsz]; exact hs
    unfold processFrame
    rw [e]
    simp only [outputOf, ho, outputSized, hc, hs', if_true]
  · intro hc
    unfold processFrame
    rw [e]
    simp only [outputOf, ho, outputSized, hc, Bool.false_eq_true, if_false, toInt, if_pos hi]

/-- C59, full statement: every frame of the receiver is turned into an image inside the frame, whatever
dimensions are configured. -/
def C59_statement : Prop :=
  ∀ (c : Cfg) (h : Header) (p : Buf) (lost : Nat), LaidOut h p → h.received ≤ h.expected → 0 ≤ c.width →
    0 ≤ c.height → (processFrame c h p lost).1 ≠ .ub

/-- C59 is false of the code: the configured dimensions are not compared with the frame, and the copy reads
beyond it. -/
theorem C59_violated : ¬ C59_statement := by
  intro h
  apply h ⟨2, 2, true⟩ ⟨0, 1, 1, 2, fun _ => 1⟩ ⟨2, fun _ => 5⟩ 0 ⟨by decide, by decide⟩ (by decide) (by decide)
    (by decide)
  unfold processFrame
  rw [C47_complete_untouched _ _ _ rfl]
  rfl

/-- An image of 2 GiB or more that is not copied is passed on with a negative size, whatever the frame. -/
theorem C59_large (c : Cfg) (n : Nat) (p : Buf) (w ht : Nat) (hw : c.width = w) (hh : c.height = ht) (hc : c.copyFrame = false)
    (h1 : 2 ^ 31 ≤ w * ht * 2) (h2 : w * ht * 2 < 2 ^ 32) :
    ∃ i : Int, output c n p = .inPlace n [c.height, c.width] i p ∧ i = (w * ht * 2 : Nat) - 4294967296 ∧ i < 0 := by
  refine ⟨toInt (w * ht * 2), ?_, ?_, ?_⟩
  · rw [output_sized c n p w ht hw hh (by omega)]
    simp only [outputSized, hc, Bool.false_eq_true, if_false]
  · unfold toInt
    rw [if_neg (by omega)]
    rfl
  · unfold toInt
    rw [if_neg (by omega)]
    omega

example : (2 : Nat) ^ 31 ≤ 32768 * 32768 * 2 ∧ 32768 * 32768 * 2 < (2 : Nat) ^ 32 := by decide

/-- Non-vacuity of C47 and C59: three packets of two bytes, the second lost. -/
def exHeader : Header := ⟨7, 3, 2, 2, fun k => if k = 1 then 0 else 1⟩

example : LaidOut exHeader ⟨6, fun b => b + 10⟩ ∧ exHeader.received < exHeader.expected ∧ missing exHeader = 1 :=
  ⟨⟨by decide, by decide⟩, by decide, by decide⟩

example : (match processFrame ⟨3, 1, true⟩ exHeader ⟨6, fun b => b + 10⟩ 4 with
    | (.copied n d m, l) => some (n, d, (List.range m.size).map m.data, l)
    | _ => none) = some (7, [1, 3], [10, 11, 0, 0, 14, 15], 5) := by decide

end Verif.DummyProcess
