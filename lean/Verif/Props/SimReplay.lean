import Verif.Model.SimReplay
import Verif.Props.Simulator
import Verif.Props.Ports
import Verif.Props.JsonGrammar
/-! Sizes of simulated images as `int` (C44), the statistics of the simulator (C170) and its list of packets to drop (C171). -/
namespace Verif.SimReplay
open Verif.Ipc (Str)
open Verif.Receiver (dec splitComma digitChar)
open Verif.Simulator (Raw Frame create createI createFrom packets nextPacket extract extractAll image image_length Res.toI)

/-! ## C44: sizes -/

/-- For sizes that make sense `create_frames` is what C44 is about. -/
theorem C44_sizes (fuel : Nat) (width height len n : Int) (h1 : 0 < width * height) (h2 : width * height < 2147483648)
    (h3 : 0 ≤ len) (h4 : len < 2147483640) (hn : 0 < n) :
    createI fuel width height len n = (create fuel (width * height).toNat len.toNat n.toNat).toI := by
  unfold createI
  rw [if_neg (by omega), if_neg (by omega), if_neg (by omega), if_neg (by omega), if_neg (by omega), if_neg (by omega)]

/-- Without pixels no frames come to be, however many were asked for. -/
theorem C44_no_pixels (fuel : Nat) (width height len n : Int) (h : width * height = 0) (hl : -8 ≤ len) :
    createI fuel width height len n = .ok [] := by
  unfold createI
  rw [if_neg (by omega), if_neg (by omega), if_neg (by omega), if_pos (Or.inr h)]

/-- From 2^31 pixels on the product is undefined. -/
theorem C44_product (fuel : Nat) (width height len n : Int) (h : 2147483648 ≤ width * height) :
    createI fuel width height len n = .ub := by
  unfold createI
  rw [if_pos (Or.inr h)]

/-- Packet lengths from -8 to -1: the image is written behind the end of the packet buffer. -/
theorem C44_negative (fuel : Nat) (width height len n : Int) (h1 : 0 < width * height) (h2 : width * height < 2147483648)
    (h3 : -8 ≤ len) (h4 : len < 0) (hn : 0 < n) : createI fuel width height len n = .ub := by
  unfold createI
  rw [if_neg (by omega), if_neg (by omega), if_neg (by omega), if_neg (by omega), if_pos h4]

/-- A negative number of pixels, or a smaller packet length, ends the program with an exception. -/
theorem C44_throws (fuel : Nat) (width height len n : Int) (h1 : -2147483648 ≤ width * height) (h2 : width * height < 2147483648)
    (h3 : width * height < 0 ∨ len < -8) : createI fuel width height len n = .throws := by
  unfold createI
  rw [if_neg (by omega)]
  by_cases h : width * height < 0
  · rw [if_pos h]
  · rw [if_neg h, if_pos (by omega)]

example : createI 12 2 3 4 1 = .ok [⟨0, [⟨0, 0, true, false, [0, 0, 1, 0]⟩, ⟨0, 1, false, false, [2, 0, 3, 0]⟩,
  ⟨0, 2, false, true, [4, 0, 5, 0]⟩]⟩] := by decide +kernel
example : createI 12 (-2) (-3) 4 1 = createI 12 2 3 4 1 := by decide +kernel
example : createI 0 65536 65536 8000 1 = .ub ∧ createI 0 2 3 (-1) 1 = .ub ∧ createI 0 (-2) 3 4 1 = .throws := by decide +kernel

namespace Spec

/-- Packets and bytes that were sent, packets that were dropped. -/
def sentPackets (fs : List (List Fate)) : Nat :=
  ((fs.flatMap id).filter (fun x => match x with | .sent _ => true | _ => false)).length

def droppedPackets (fs : List (List Fate)) : Nat := ((fs.flatMap id).filter (fun x => x == .dropped)).length

def sizeOf : Fate → Nat
  | .sent n => n
  | _ => 0

def sentBytes (fs : List (List Fate)) : Nat := ((fs.flatMap id).map sizeOf).sum

/-- A text of decimal digits and its value. -/
def value (t : Str) : Option Nat :=
  if t ≠ [] ∧ ∀ c ∈ t, 48 ≤ c.toNat ∧ c.toNat ≤ 57 then some (t.foldl (fun a c => a * 10 + (c.toNat - 48)) 0) else none

/-- Items with commas between them. -/
def list : List Str → Str
  | [] => []
  | [t] => t
  | t :: u :: l => t ++ ',' :: list (u :: l)

end Spec
open Spec

/-! ## C170: statistics -/

/-- C170, full statement: the packets and bytes reported are those that were sent. -/
def C170_statement : Prop :=
  ∀ fs, ∃ t, report fs = some t ∧ t.sent = sentPackets fs ∧ t.dropped = droppedPackets fs ∧ t.bytes = sentBytes fs

/-- The counters as exact numbers: packets counted as sent, bytes. -/
def sentZ : List Fate → Int
  | [] => 0
  | .dropped :: l => sentZ l
  | _ :: l => sentZ l + 1

def dropZ : List Fate → Int
  | [] => 0
  | .dropped :: l => dropZ l + 1
  | _ :: l => dropZ l

def byteZ : List Fate → Int
  | [] => 0
  | .dropped :: l => byteZ l
  | .sent n :: l => byteZ l + n
  | .failed :: l => byteZ l - 1

theorem addI_ok {a b : Int} (h1 : -2147483648 ≤ a + b) (h2 : a + b < 2147483648) : addI a b = some (a + b) := by
  unfold addI; rw [if_pos ⟨h1, h2⟩]

theorem addI_eq {a b c : Int} (h : addI a b = some c) : c = a + b ∧ -2147483648 ≤ c ∧ c < 2147483648 := by
  unfold addI at h
  split at h
  · next hc => cases h; exact ⟨rfl, hc.1, hc.2⟩
  · cases h

/-- What is counted when nothing overflows. -/
theorem countAll_eq (l : List Fate) : ∀ (t u : Tally), countAll t l = some u →
    u.sent = t.sent + sentZ l ∧ u.dropped = t.dropped + dropZ l ∧ u.bytes = t.bytes + byteZ l := by
  induction l with
  | nil => intro t u h; cases h; simp [sentZ, dropZ, byteZ]
  | cons x l ih =>
    intro t u h
    obtain ⟨v, hv, hr⟩ := Option.bind_eq_some_iff.1 h
    obtain ⟨i1, i2, i3⟩ := ih v u hr
    cases x with
    | dropped =>
      obtain ⟨d, hd, e⟩ := Option.map_eq_some_iff.1 hv
      have := (addI_eq hd).1
      subst e
      dsimp only at i1 i2 i3
      exact ⟨i1, by rw [i2, this]; show _ = t.dropped + (dropZ l + 1); omega, i3⟩
    | sent n =>
      obtain ⟨b, hb, hm⟩ := Option.bind_eq_some_iff.1 (show countSent t n = some v from hv)
      obtain ⟨s, hs, e⟩ := Option.map_eq_some_iff.1 hm
      have e1 := (addI_eq hb).1
      have e2 := (addI_eq hs).1
      subst e
      dsimp only at i1 i2 i3
      refine ⟨?_, i2, ?_⟩
      · show u.sent = t.sent + (sentZ l + 1); omega
      · show u.bytes = t.bytes + (byteZ l + n); omega
    | failed =>
      obtain ⟨b, hb, hm⟩ := Option.bind_eq_some_iff.1 (show countSent t (-1) = some v from hv)
      obtain ⟨s, hs, e⟩ := Option.map_eq_some_iff.1 hm
      have e1 := (addI_eq hb).1
      have e2 := (addI_eq hs).1
      subst e
      dsimp only at i1 i2 i3
      refine ⟨?_, i2, ?_⟩
      · show u.sent = t.sent + (sentZ l + 1); omega
      · show u.bytes = t.bytes + (byteZ l - 1); omega

theorem sentZ_nonneg (l : List Fate) : 0 ≤ sentZ l := by
  induction l with
  | nil => exact Int.le_refl _
  | cons x l ih => cases x <;> simp only [sentZ] <;> omega

theorem dropZ_nonneg (l : List Fate) : 0 ≤ dropZ l := by
  induction l with
  | nil => exact Int.le_refl _
  | cons x l ih => cases x <;> simp only [dropZ] <;> omega

/-- Bytes, when no call fails. -/
def sizes : List Fate → Int
  | [] => 0
  | x :: l => sizes l + Spec.sizeOf x

theorem byteZ_sizes (l : List Fate) (h : Fate.failed ∉ l) : byteZ l = sizes l := by
  induction l with
  | nil => rfl
  | cons x l ih =>
    have ih := ih (fun hm => h (List.mem_cons_of_mem _ hm))
    cases x with
    | dropped => simp only [byteZ, sizes, Spec.sizeOf, ih]; omega
    | sent n => simp only [byteZ, sizes, Spec.sizeOf, ih]
    | failed => exact absurd List.mem_cons_self h

theorem sizes_nonneg (l : List Fate) : 0 ≤ sizes l := by
  induction l with
  | nil => exact Int.le_refl _
  | cons x l ih => simp only [sizes]; omega

/-- Nothing overflows as long as the sums are small. -/
theorem countAll_ok (l : List Fate) : ∀ (t : Tally), Fate.failed ∉ l → 0 ≤ t.sent → 0 ≤ t.dropped → 0 ≤ t.bytes →
    t.sent + sentZ l < 2147483648 → t.dropped + dropZ l < 2147483648 → t.bytes + sizes l < 2147483648 →
    (countAll t l).isSome = true := by
  induction l with
  | nil => intro t _ _ _ _ _ _ _; rfl
  | cons x l ih =>
    intro t hf h1 h2 h3 h4 h5 h6
    have hf' : Fate.failed ∉ l := fun hm => hf (List.mem_cons_of_mem _ hm)
    have a1 := sentZ_nonneg l
    have a2 := dropZ_nonneg l
    have a3 := sizes_nonneg l
    cases x with
    | dropped =>
      simp only [sentZ, dropZ, sizes, Spec.sizeOf] at h4 h5 h6
      have : count t .dropped = some ⟨t.sent, t.dropped + 1, t.bytes⟩ := by
        show (addI t.dropped 1).map _ = _
        rw [addI_ok (by omega) (by omega)]; rfl
      show ((count t .dropped).bind _).isSome = true
      rw [this]
      exact ih _ hf' h1 (by dsimp only; omega) h3 (by dsimp only; omega) (by dsimp only; omega) (by dsimp only; omega)
    | sent n =>
      simp only [sentZ, dropZ, sizes, Spec.sizeOf] at h4 h5 h6
      have : count t (.sent n) = some ⟨t.sent + 1, t.dropped, t.bytes + n⟩ := by
        show (addI t.bytes n).bind _ = _
        rw [addI_ok (by omega) (by omega)]
        show (addI t.sent 1).map _ = _
        rw [addI_ok (by omega) (by omega)]; rfl
      show ((count t (.sent n)).bind _).isSome = true
      rw [this]
      exact ih _ hf' (by dsimp only; omega) h2 (by dsimp only; omega) (by dsimp only; omega) (by dsimp only; omega) (by dsimp only; omega)
    | failed => exact absurd List.mem_cons_self hf

/-- Over all frames. -/
theorem totals_eq (fs : List (List Fate)) : ∀ (t u : Tally), totals t fs = some u →
    u.sent = t.sent + sentZ (fs.flatMap id) ∧ u.dropped = t.dropped + dropZ (fs.flatMap id) ∧
    u.bytes = t.bytes + byteZ (fs.flatMap id) := by
  have app : ∀ a b : List Fate, sentZ (a ++ b) = sentZ a + sentZ b ∧ dropZ (a ++ b) = dropZ a + dropZ b ∧
      byteZ (a ++ b) = byteZ a + byteZ b := by
    intro a b
    induction a with
    | nil => simp [sentZ, dropZ, byteZ]
    | cons x a ih =>
      obtain ⟨i1, i2, i3⟩ := ih
      cases x <;> simp only [List.cons_append, sentZ, dropZ, byteZ] <;> omega
  induction fs with
  | nil => intro t u h; cases h; simp [sentZ, dropZ, byteZ]
  | cons f fs ih =>
    intro t u h
    obtain ⟨x, hx, h1⟩ := Option.bind_eq_some_iff.1 h
    obtain ⟨v, hv, h2⟩ := Option.bind_eq_some_iff.1 h1
    obtain ⟨i1, i2, i3⟩ := ih v u h2
    obtain ⟨c1, c2, c3⟩ := countAll_eq f {} x hx
    obtain ⟨s, hs, g1⟩ := Option.bind_eq_some_iff.1 (show addTally t x = some v from hv)
    obtain ⟨d, hd, g2⟩ := Option.bind_eq_some_iff.1 g1
    obtain ⟨b, hb, g3⟩ := Option.map_eq_some_iff.1 g2
    have e1 := (addI_eq hs).1
    have e2 := (addI_eq hd).1
    have e3 := (addI_eq hb).1
    subst g3
    dsimp only at i1 i2 i3 c1 c2 c3
    obtain ⟨a1, a2, a3⟩ := app f (fs.flatMap id)
    have hfl : (f :: fs).flatMap id = f ++ fs.flatMap id := rfl
    rw [hfl]
    omega

theorem totals_ok (fs : List (List Fate)) : ∀ (t : Tally), Fate.failed ∉ fs.flatMap id → 0 ≤ t.sent → 0 ≤ t.dropped → 0 ≤ t.bytes →
    t.sent + sentZ (fs.flatMap id) < 2147483648 → t.dropped + dropZ (fs.flatMap id) < 2147483648 →
    t.bytes + sizes (fs.flatMap id) < 2147483648 → (totals t fs).isSome = true := by
  have app : ∀ a b : List Fate, sentZ (a ++ b) = sentZ a + sentZ b ∧ dropZ (a ++ b) = dropZ a + dropZ b ∧
      sizes (a ++ b) = sizes a + sizes b := by
    intro a b
    induction a with
    | nil => simp [sentZ, dropZ, sizes]
    | cons x a ih =>
      obtain ⟨i1, i2, i3⟩ := ih
      cases x <;> simp only [List.cons_append, sentZ, dropZ, sizes, Spec.sizeOf] <;> omega
  induction fs with
  | nil => intro t _ _ _ _ _ _ _; rfl
  | cons f fs ih =>
    intro t hf h1 h2 h3 h4 h5 h6
    have hfl : (f :: fs).flatMap id = f ++ fs.flatMap id := rfl
    rw [hfl] at hf h4 h5 h6
    obtain ⟨a1, a2, a3⟩ := app f (fs.flatMap id)
    rw [a1] at h4
    rw [a2] at h5
    rw [a3] at h6
    have n1 := sentZ_nonneg f
    have n2 := dropZ_nonneg f
    have n3 := sizes_nonneg f
    have m1 := sentZ_nonneg (fs.flatMap id)
    have m2 := dropZ_nonneg (fs.flatMap id)
    have m3 := sizes_nonneg (fs.flatMap id)
    have hff : Fate.failed ∉ f := fun hm => hf (List.mem_append_left _ hm)
    obtain ⟨x, hx⟩ := Option.isSome_iff_exists.1
      (countAll_ok f {} hff (Int.le_refl _) (Int.le_refl _) (Int.le_refl _) (by dsimp only; omega) (by dsimp only; omega) (by dsimp only; omega))
    obtain ⟨c1, c2, c3⟩ := countAll_eq f {} x hx
    rw [byteZ_sizes f hff] at c3
    dsimp only at c1 c2 c3
    have hadd : addTally t x = some ⟨t.sent + x.sent, t.dropped + x.dropped, t.bytes + x.bytes⟩ := by
      unfold addTally
      rw [addI_ok (by omega) (by omega)]
      show (addI t.dropped x.dropped).bind _ = _
      rw [addI_ok (by omega) (by omega)]
      show (addI t.bytes x.bytes).map _ = _
      rw [addI_ok (by omega) (by omega)]
      rfl
    show ((countAll {} f).bind _).isSome = true
    rw [hx]
    show ((addTally t x).bind _).isSome = true
    rw [hadd]
    exact ih _ (fun hm => hf (List.mem_append_right _ hm)) (by dsimp only; omega) (by dsimp only; omega) (by dsimp only; omega)
      (by dsimp only; omega) (by dsimp only; omega) (by dsimp only; omega)

theorem sentZ_count (l : List Fate) (h : Fate.failed ∉ l) :
    sentZ l = ((l.filter (fun x => match x with | .sent _ => true | _ => false)).length : Nat) := by
  induction l with
  | nil => rfl
  | cons x l ih =>
    have ih := ih (fun hm => h (List.mem_cons_of_mem _ hm))
    cases x with
    | dropped => simpa [sentZ] using ih
    | sent n => simp [sentZ, ih]
    | failed => exact absurd List.mem_cons_self h

theorem dropZ_count (l : List Fate) : dropZ l = ((l.filter (fun x => x == .dropped)).length : Nat) := by
  induction l with
  | nil => rfl
  | cons x l ih => cases x <;> simp [dropZ, ih]

theorem sizes_sum (l : List Fate) : sizes l = ((l.map Spec.sizeOf).sum : Nat) := by
  induction l with
  | nil => rfl
  | cons x l ih => simp only [sizes, List.map_cons, List.sum_cons, ih]; omega

/-- C170, proved part: if no call fails and less than 2^31 bytes and packets are sent. -/
theorem C170_partial (fs : List (List Fate)) (hf : Fate.failed ∉ fs.flatMap id) (hb : sentBytes fs < 2147483648)
    (hs : sentPackets fs < 2147483648) (hd : droppedPackets fs < 2147483648) :
    ∃ t, report fs = some t ∧ t.sent = sentPackets fs ∧ t.dropped = droppedPackets fs ∧ t.bytes = sentBytes fs := by
  have e1 := sentZ_count _ hf
  have e2 := dropZ_count (fs.flatMap id)
  have e3 := sizes_sum (fs.flatMap id)
  unfold sentPackets at hs
  unfold droppedPackets at hd
  unfold sentBytes at hb
  obtain ⟨t, ht⟩ := Option.isSome_iff_exists.1 (totals_ok fs {} hf (Int.le_refl _) (Int.le_refl _) (Int.le_refl _)
    (by dsimp only; omega) (by dsimp only; omega) (by dsimp only; omega))
  obtain ⟨c1, c2, c3⟩ := totals_eq fs {} t ht
  rw [byteZ_sizes _ hf] at c3
  dsimp only at c1 c2 c3
  refine ⟨t, ht, ?_, ?_, ?_⟩
  · unfold sentPackets; omega
  · unfold droppedPackets; omega
  · unfold sentBytes; omega

/-- The number of calls that failed. -/
def failures : List Fate → Int
  | [] => 0
  | .failed :: l => failures l + 1
  | _ :: l => failures l

/-- What is reported, if anything: packets that could not be sent count as sent, and take a byte off the sum each. -/
theorem C170_reported (fs : List (List Fate)) (t : Tally) (h : report fs = some t) :
    t.sent = sentPackets fs + failures (fs.flatMap id) ∧ t.dropped = droppedPackets fs ∧
    t.bytes = sentBytes fs - failures (fs.flatMap id) := by
  obtain ⟨c1, c2, c3⟩ := totals_eq fs {} t h
  dsimp only at c1 c2 c3
  have key : ∀ l : List Fate,
      sentZ l = ((l.filter (fun x => match x with | .sent _ => true | _ => false)).length : Nat) + failures l ∧
      byteZ l = ((l.map Spec.sizeOf).sum : Nat) - failures l := by
    intro l
    induction l with
    | nil => exact ⟨rfl, rfl⟩
    | cons x l ih =>
      obtain ⟨i1, i2⟩ := ih
      cases x with
      | dropped => simp [sentZ, byteZ, failures, Spec.sizeOf, i1, i2]
      | sent n => simp [sentZ, byteZ, failures, Spec.sizeOf, i1, i2]; omega
      | failed => simp [sentZ, byteZ, failures, Spec.sizeOf, i1, i2]; omega
  obtain ⟨k1, k2⟩ := key (fs.flatMap id)
  have k3 := dropZ_count (fs.flatMap id)
  refine ⟨?_, ?_, ?_⟩
  · unfold sentPackets; omega
  · unfold droppedPackets; omega
  · unfold sentBytes; omega

/-- C170 is false of the code: a packet that cannot be sent. -/
theorem C170_violated : ¬C170_statement := by
  intro h
  obtain ⟨t, h1, h2, -, -⟩ := h [[.failed]]
  have e : report [[.failed]] = some ⟨1, 0, -1⟩ := by decide
  rw [e] at h1
  cases h1
  exact absurd h2 (by decide)

/-- From 2^31 bytes on the sum is undefined. -/
theorem C170_overflow (fs : List (List Fate)) (hf : Fate.failed ∉ fs.flatMap id) (hb : 2147483648 ≤ sentBytes fs) : report fs = none := by
  cases h : report fs with
  | none => rfl
  | some t =>
    exfalso
    obtain ⟨-, -, c3⟩ := C170_reported fs t h
    have hz : ∀ l : List Fate, Fate.failed ∉ l → failures l = 0 := by
      intro l
      induction l with
      | nil => intro _; rfl
      | cons x l ih =>
        intro hl
        have ih := ih (fun hm => hl (List.mem_cons_of_mem _ hm))
        cases x with
        | dropped => exact ih
        | sent n => exact ih
        | failed => exact absurd List.mem_cons_self hl
    rw [hz _ hf] at c3
    have hlt : t.bytes < 2147483648 := by
      have hbnd : ∀ (fs : List (List Fate)) (t u : Tally), t.bytes < 2147483648 → totals t fs = some u → u.bytes < 2147483648 := by
        intro fs
        induction fs with
        | nil => intro t u ht h; cases h; exact ht
        | cons f fs ih =>
          intro t u ht h
          obtain ⟨x, hx, h1⟩ := Option.bind_eq_some_iff.1 h
          obtain ⟨v, hv, h2⟩ := Option.bind_eq_some_iff.1 h1
          obtain ⟨s, hs, g1⟩ := Option.bind_eq_some_iff.1 (show addTally t x = some v from hv)
          obtain ⟨d, hd, g2⟩ := Option.bind_eq_some_iff.1 g1
          obtain ⟨b, hb, g3⟩ := Option.map_eq_some_iff.1 g2
          refine ih v u ?_ h2
          rw [← g3]
          exact (addI_eq hb).2.2
      exact hbnd fs {} t (by decide) h
    omega

/-! ### Frames of the simulator -/

theorem packets_bytes (len f : Nat) : ∀ (fuel num : Nat) (bytes : List Nat) (rs : List Raw), packets len f fuel num bytes = some rs →
    (rs.map (·.data.length)).sum = bytes.length := by
  intro fuel
  induction fuel with
  | zero =>
    intro num bytes rs h
    cases bytes with
    | nil => cases h; rfl
    | cons b bs => cases h
  | succ fuel ih =>
    intro num bytes rs h
    cases bytes with
    | nil => cases h; rfl
    | cons b bs =>
      obtain ⟨rs', h1, h2⟩ := Option.map_eq_some_iff.1
        (show (packets len f fuel (num + 1) ((b :: bs).drop (nextPacket len f num (b :: bs)).data.length)).map _ = some rs from h)
      have := ih _ _ _ h1
      rw [← h2, List.map_cons, List.sum_cons, this, List.length_drop]
      have hle : (nextPacket len f num (b :: bs)).data.length ≤ (b :: bs).length := by
        unfold nextPacket
        split
        · exact (List.length_take_le' _ _)
        · exact Nat.le_refl _
      omega

/-- Bytes of data in frames. -/
def volume (frames : List Frame) : Nat := (frames.map (fun f => (f.packets.map (·.data.length)).sum)).sum

theorem extractAll_volume (rs : List Raw) : ∀ (fs gs : List Frame), extractAll fs rs = some gs →
    volume gs = volume fs + (rs.map (·.data.length)).sum := by
  induction rs with
  | nil => intro fs gs h; cases h; simp
  | cons r rs ih =>
    intro fs gs h
    obtain ⟨hs, h1, h2⟩ := Option.bind_eq_some_iff.1 h
    rw [ih hs gs h2, List.map_cons, List.sum_cons]
    have : volume hs = volume fs + r.data.length := by
      unfold extract at h1
      cases hsof : r.sof with
      | true =>
        rw [hsof] at h1
        cases h1
        simp [volume]
        omega
      | false =>
        rw [hsof] at h1
        cases fs with
        | nil => cases h1
        | cons f fs =>
          cases h1
          simp [volume]
          omega
    omega

theorem createFrom_volume (fuel pixels len : Nat) : ∀ (n : Nat) (fs : List Frame) (k : Nat) (gs : List Frame),
    createFrom fuel pixels len fs k n = .ok gs → volume gs = volume fs + n * (2 * pixels) := by
  intro n
  induction n with
  | zero =>
    intro fs k gs h
    cases h
    unfold volume
    rw [List.map_reverse, List.sum_reverse]
    omega
  | succ n ih =>
    intro fs k gs h
    unfold createFrom at h
    cases hp : packets len k fuel 0 (image pixels) with
    | none => rw [hp] at h; cases h
    | some rs =>
      rw [hp] at h
      dsimp only at h
      cases he : extractAll fs rs with
      | none => rw [he] at h; cases h
      | some hs =>
        rw [he] at h
        dsimp only at h
        rw [ih hs (k + 1) gs h, extractAll_volume rs fs hs he, packets_bytes _ _ _ _ _ _ hp, image_length]
        rw [show (n + 1) * (2 * pixels) = n * (2 * pixels) + 2 * pixels from Nat.succ_mul n (2 * pixels)]
        omega

theorem volume_sent (frames : List Frame) : volume frames ≤ sentBytes (frames.map allSent) := by
  have hp : ∀ rs : List Raw, (rs.map (·.data.length)).sum ≤ ((rs.map (fun r => Fate.sent r.wire.length)).map Spec.sizeOf).sum := by
    intro rs
    induction rs with
    | nil => exact Nat.le_refl _
    | cons r rs ih =>
      simp only [List.map_cons, List.sum_cons, Spec.sizeOf]
      have : r.data.length ≤ r.wire.length := by
        unfold Raw.wire
        rw [List.length_append]
        omega
      omega
  unfold volume sentBytes
  induction frames with
  | nil => exact Nat.le_refl _
  | cons f fs ih =>
    simp only [List.map_cons, List.flatMap_cons, List.sum_cons, List.map_append, List.sum_append, id]
    exact Nat.add_le_add (hp f.packets) ih

theorem not_failed (frames : List Frame) : Fate.failed ∉ (frames.map allSent).flatMap id := by
  intro h
  obtain ⟨l, hl, hm⟩ := List.mem_flatMap.1 h
  obtain ⟨f, -, e⟩ := List.mem_map.1 hl
  rw [← e] at hm
  obtain ⟨r, -, e2⟩ := List.mem_map.1 (show Fate.failed ∈ f.packets.map (fun r => Fate.sent r.wire.length) from hm)
  cases e2

/-- Frames of the simulator, all of which are sent: the sum is undefined if the images have 2^31 bytes together. -/
theorem C170_simulated (fuel pixels len n : Nat) (frames : List Frame) (h : create fuel pixels len n = .ok frames)
    (hb : 2147483648 ≤ n * (2 * pixels)) : report (frames.map allSent) = none := by
  refine C170_overflow _ (not_failed frames) ?_
  have := createFrom_volume fuel pixels len n [] 0 frames h
  have h2 := volume_sent frames
  have h3 : volume [] = 0 := rfl
  omega

/-- So it is with the defaults, FrameSimulatorOptionsDummyUDP.h:9-11 and FrameSimulatorOptions.h:13: 1000 frames of 1400 times
1024 pixels. -/
theorem C170_default : ∃ frames, create (2 * (1400 * 1024)) (1400 * 1024) 8000 1000 = .ok frames ∧ report (frames.map allSent) = none := by
  obtain ⟨frames, h, -⟩ := Simulator.createFrom_spec (1400 * 1024) 8000 (2 * (1400 * 1024)) (by decide) (by decide) (Nat.le_refl _) 1000 0 []
  exact ⟨frames, h, C170_simulated _ _ _ _ frames h (by decide)⟩

example : report [[.sent 8008, .dropped, .sent 3208], [.dropped], []] = some ⟨2, 2, 11216⟩ := by decide
example : sentPackets [[.sent 8008, .dropped, .sent 3208], [.dropped], []] = 2 ∧
    sentBytes [[.sent 8008, .dropped, .sent 3208], [.dropped], []] = 11216 := by decide

/-! ## C171: the list of packets to drop -/

/-- C171, full statement: with a list of numbers, a packet is dropped if and only if its number is in the list. -/
def C171_statement : Prop :=
  ∀ l : List Str, l ≠ [] → (∀ t ∈ l, (value t).isSome) → ∀ p, listed (Spec.list l) p = true ↔ ∃ t ∈ l, value t = some p

theorem mem_squeeze {t : Str} (ht : t ≠ []) (l : List Str) : t ∈ squeeze l ↔ t ∈ l := by
  match l with
  | [] => exact Iff.rfl
  | [a] => exact Iff.rfl
  | a :: b :: l =>
    have e : (b :: l).dropLast ++ [(b :: l).getLast (by simp)] = b :: l := List.dropLast_concat_getLast _
    show t ∈ a :: ((b :: l).dropLast.filter (fun t => !t.isEmpty) ++ [(b :: l).getLast (by simp)]) ↔ t ∈ a :: b :: l
    have hm : t ∈ b :: l ↔ t ∈ (b :: l).dropLast ∨ t = (b :: l).getLast (by simp) := by
      conv => lhs; rw [← e]
      rw [List.mem_append, List.mem_singleton]
    have hte : t.isEmpty = false := by cases t with | nil => exact absurd rfl ht | cons _ _ => rfl
    rw [List.mem_cons, List.mem_cons (a := t) (b := a), hm, List.mem_append, List.mem_filter, hte, List.mem_singleton]
    simp

theorem dec_ne (n : Nat) : dec n ≠ [] := by
  intro h
  have : Receiver.digitsF (n + 1) n = [] := List.map_eq_nil_iff.1 h
  have hv := Receiver.digitsF_val (n + 1) n (by omega)
  unfold Receiver.digitsF at this
  split at this
  · cases this
  · exact absurd this (by simp)

theorem split_list (l : List Str) (hl : l ≠ []) (h : ∀ t ∈ l, ',' ∉ t) : splitComma (Spec.list l) = l := by
  induction l with
  | nil => exact absurd rfl hl
  | cons t l ih =>
    cases l with
    | nil => exact Receiver.splitComma_plain t (h t List.mem_cons_self)
    | cons u l =>
      show splitComma (t ++ ',' :: Spec.list (u :: l)) = _
      rw [Receiver.splitComma_cons _ _ (h t List.mem_cons_self), ih (by simp) (fun x hx => h x (List.mem_cons_of_mem _ hx))]

/-- What the code does, for any text: the number of the packet in decimal, without leading zeros, is an item. -/
theorem C171_exact (s : Str) (p : Nat) : listed s p = true ↔ dec p ∈ splitComma s := by
  unfold listed items
  rw [List.contains_iff_mem, mem_squeeze (dec_ne p)]

theorem dec_value (n : Nat) : value (dec n) = some n := by
  have hlt := Receiver.digitsF_lt (n + 1) n
  have hd : ∀ d : Fin 10, 48 ≤ (digitChar d.val).toNat ∧ (digitChar d.val).toNat ≤ 57 ∧ (digitChar d.val).toNat - 48 = d.val := by
    decide +kernel
  have hall : ∀ c ∈ dec n, 48 ≤ c.toNat ∧ c.toNat ≤ 57 := by
    intro c hc
    obtain ⟨d, hm, e⟩ := List.mem_map.1 hc
    rw [← e]
    have := hd ⟨d, hlt d hm⟩
    exact ⟨this.1, this.2.1⟩
  have key : ∀ (l : List Nat) (a : Nat), (∀ d ∈ l, d < 10) →
      (l.map digitChar).foldl (fun a c => a * 10 + (c.toNat - 48)) a = l.foldl (fun a d => a * 10 + d) a := by
    intro l
    induction l with
    | nil => intro a _; rfl
    | cons d l ih =>
      intro a hl
      have := (hd ⟨d, hl d List.mem_cons_self⟩).2.2
      simp only [List.map_cons, List.foldl_cons]
      dsimp only at this
      rw [this]
      exact ih _ (fun x hx => hl x (List.mem_cons_of_mem _ hx))
  unfold value
  rw [if_pos ⟨dec_ne n, hall⟩]
  unfold dec
  rw [key _ _ hlt, Receiver.digitsF_val _ _ (by omega)]

theorem dec_inj {a b : Nat} (h : dec a = dec b) : a = b := by
  have := dec_value a
  rw [h, dec_value b] at this
  exact (Option.some.inj this).symm

/-- C171, proved part: for numbers without leading zeros. -/
theorem C171_partial (l : List Nat) (hl : l ≠ []) (p : Nat) : listed (Spec.list (l.map dec)) p = true ↔ p ∈ l := by
  rw [C171_exact, split_list _ (by simpa using hl) (fun t ht => ?_)]
  · constructor
    · intro h
      obtain ⟨q, hq, e⟩ := List.mem_map.1 h
      rw [← dec_inj e]
      exact hq
    · intro h
      exact List.mem_map.2 ⟨p, h, rfl⟩
  · obtain ⟨q, -, e⟩ := List.mem_map.1 ht
    rw [← e]
    exact Receiver.dec_comma q

/-- No packet is dropped that is not listed, whatever the text of the option. -/
theorem C171_only (s : Str) (p : Nat) (h : listed s p = true) : ∃ t ∈ splitComma s, value t = some p :=
  ⟨dec p, (C171_exact s p).1 h, dec_value p⟩

/-- C171 is false of the code: "01" drops nothing. -/
theorem C171_violated : ¬C171_statement := by
  intro h
  have := (h [['0', '1']] (by simp) (by decide) 1).2 ⟨['0', '1'], by simp, by decide⟩
  exact absurd this (by decide)

/-- With the replay of C82: of every frame the packets are sent that are not in the list. -/
theorem C171_replay (ports : Nat) (gap : Option Nat) (l : List Nat) (hl : l ≠ []) (frames : List Frame) (k : Nat)
    (hgap : gap ≠ some 0) (hf : frames ≠ []) :
    ∃ r, Simulator.replay ports gap (fun _ p => listed (Spec.list (l.map dec)) p) frames k = some r ∧
      r.map (·.packet) = (Simulator.Spec.expected ports (fun _ p => decide (p ∈ l)) frames k).map (·.packet) := by
  have e : (fun (_ : Nat) p => listed (Spec.list (l.map dec)) p) = (fun (_ : Nat) p => decide (p ∈ l)) := by
    funext _ p
    rw [Bool.eq_iff_iff, C171_partial l hl p, decide_eq_true_iff]
  rw [e]
  exact Simulator.C82_packets ports gap _ frames k hgap hf

example : (List.range 20).filter (listed "1,,3,17".toList) = [1, 3, 17] := by decide +kernel
example : (List.range 20).filter (listed "1, 3,+5,007".toList) = [1] := by decide +kernel
example : Spec.list ([1, 3, 17].map dec) = "1,3,17".toList := by decide +kernel

end Verif.SimReplay
