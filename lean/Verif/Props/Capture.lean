import Verif.Model.Capture
import Verif.Props.Simulator
/-
C140: a capture file is replayed as it was captured. C141: the number of frames asked for is replayed.
-/
namespace Verif.Capture
open Verif.Simulator (Raw Frame extract extractAll Sent replay extractAll_tail extractAll_frame)

/-! ## Specification -/

/-- A number as four bytes, low byte first. -/
def word (n : Nat) : List Nat := [n % 256, n / 256 % 256, n / 65536 % 256, n / 16777216 % 256]

/-- The datagram of a packet. -/
def bytes (r : Raw) : List Nat :=
  word r.frame ++ word (r.num + (if r.sof then 2 ^ 31 else 0) + (if r.eof then 2 ^ 30 else 0)) ++ r.data

/-- A UDP datagram in an Ethernet frame; `pad`: what is added to short frames to make them 60 bytes long. -/
structure Wire where
  eth : List Nat
  ip : List Nat
  udp : List Nat
  payload : List Nat
  pad : List Nat := []

/-- The lengths are right, and the IP header says how long it is. -/
structure Wire.Valid (w : Wire) : Prop where
  eth : w.eth.length = 14
  ip : ∃ n rest, 5 ≤ n ∧ n < 16 ∧ w.ip = (64 + n) :: rest ∧ w.ip.length = 4 * n
  udp : w.udp.length = 8

/-- The bytes of the frame. -/
def Wire.all (w : Wire) : List Nat := w.eth ++ w.ip ++ w.udp ++ w.payload ++ w.pad

/-- What is captured of it, at most `snap` bytes. -/
def Wire.record (w : Wire) (snap : Nat) : Rec := ⟨w.all.length, w.all.take snap⟩

/-- What is in a capture file: the datagrams of the detector and other traffic. -/
inductive Item
  | dgram (w : Wire) (snap : Nat)
  | other (b : List Nat)

def Item.record : Item → Rec
  | .dgram w snap => w.record snap
  | .other b => ⟨b.length, b⟩

/-- The datagrams. -/
def payloads : List Item → List (List Nat)
  | [] => []
  | .dgram w _ :: l => w.payload :: payloads l
  | .other _ :: l => payloads l

/-- The captured datagrams are valid ones. -/
def Item.Valid : Item → Prop
  | .dgram w _ => w.Valid
  | .other _ => True

/-- A frame as a detector sends it: its first packet, and no other one, is marked as the start of a frame. -/
def Whole (f : Frame) : Prop :=
  ∃ r rs, f.packets = r :: rs ∧ f.number = r.frame ∧ r.sof = true ∧ ∀ x ∈ rs, x.sof = false

/-- The numbers fit into the header. -/
def Fits (r : Raw) : Prop := r.frame < 2 ^ 32 ∧ r.num < 2 ^ 30

/-- The packets of frames, in order. -/
def sentBy (fs : List Frame) : List Raw := fs.flatMap (·.packets)

/-- If a file holds the datagrams of some frames, then these frames are stored. -/
def C140_statement : Prop :=
  ∀ (fs : List Frame) (file : List Item), (∀ f ∈ fs, Whole f) → (∀ r ∈ sentBy fs, Fits r) → (∀ i ∈ file, i.Valid) →
    payloads file = (sentBy fs).map bytes → load (file.map Item.record) = some fs

/-- A file that holds nothing else, and these in full. -/
def Plain : Item → Prop
  | .dgram w snap => w.pad = [] ∧ w.all.length ≤ snap
  | .other _ => False

/-! ## Violations -/

/-- A datagram with one byte of data, and headers of 42 bytes. -/
def small (r : Raw) (pad : List Nat) : Wire :=
  ⟨List.replicate 14 0, 69 :: List.replicate 19 0, List.replicate 8 0, bytes r, pad⟩

theorem small_valid (r : Raw) (pad : List Nat) : (small r pad).Valid :=
  ⟨rfl, ⟨5, List.replicate 19 0, by decide, by decide, rfl, rfl⟩, rfl⟩

def r0 : Raw := ⟨7, 0, true, true, [42]⟩
def f0 : Frame := ⟨7, [r0]⟩

theorem f0_whole : Whole f0 := ⟨r0, [], rfl, rfl, rfl, fun x hx => by cases hx⟩

theorem f0_hyp (file : List Item) (hv : ∀ i ∈ file, i.Valid) (hp : payloads file = [bytes r0]) (h : C140_statement) :
    load (file.map Item.record) = some [f0] := by
  refine h [f0] file ?_ ?_ hv ?_
  · intro f hf
    rw [List.mem_singleton.mp hf]
    exact f0_whole
  · intro r hr
    have : r = r0 := by simpa [sentBy, f0] using hr
    subst this
    exact ⟨by decide, by decide⟩
  · rw [hp]; rfl

/-- The property does not hold: the bytes that fill up a short Ethernet frame become part of the packet, because the
length in the UDP header is not looked at. -/
theorem C140_violated : ¬ C140_statement := by
  intro h
  have h1 := f0_hyp [.dgram (small r0 [0, 0, 0, 0, 0, 0, 0, 0, 0]) 1000]
    (fun i hi => by rw [List.mem_singleton.mp hi]; exact small_valid _ _) rfl h
  exact absurd h1 (by decide +kernel)

/-- What is replayed then is nine bytes too long. -/
theorem C140_padded : load [(small r0 [0, 0, 0, 0, 0, 0, 0, 0, 0]).record 1000] =
    some [⟨7, [⟨7, 0, true, true, [42, 0, 0, 0, 0, 0, 0, 0, 0, 0]⟩]⟩] := by decide +kernel

/-- If the capture was limited to fewer bytes than a packet has, bytes are read that are not there, always: the length
on the wire is used instead of the captured length. -/
theorem C140_truncated_violated (frames : List Frame) (r : Rec) (h : r.data.length < r.len) : prepare frames r = none := by
  unfold prepare
  cases headerSize r with
  | none => rfl
  | some n => exact if_pos (Or.inr h)

/-- An ARP request in the file (42 bytes, the first byte after the Ethernet header is 0) is taken for a datagram of 20
bytes. -/
theorem C140_arp_violated (frames : List Frame) (b : List Nat) (hb : b.length = 42) (h : b[14]? = some 0) :
    prepare frames ⟨42, b⟩ = extract frames (toRaw (b.drop 22)) := by
  unfold prepare headerSize
  rw [h]
  simp only [Option.map_some]
  rw [if_neg (by omega), List.take_of_length_le (by rw [List.length_drop]; omega)]

/-- A TCP segment in the file is replayed as one of the packets of the frame it comes in. -/
theorem C140_other_violated :
    load [(small ⟨7, 0, true, false, [1]⟩ []).record 100, ⟨54, List.replicate 14 0 ++ 69 :: List.replicate 39 0⟩,
      (small ⟨7, 1, false, true, [2]⟩ []).record 100] =
    some [⟨7, [⟨7, 0, true, false, [1]⟩, ⟨0, 0, false, false, [0, 0, 0, 0]⟩, ⟨7, 1, false, true, [2]⟩]⟩] := by decide +kernel

/-! ## What holds -/

theorem le32_word (n : Nat) (h : n < 2 ^ 32) : le32 (word n) = n := by
  simp only [word, le32]
  omega

/-- The header of a datagram reads back. -/
theorem toRaw_bytes (r : Raw) (h : Fits r) : toRaw (bytes r) = r := by
  obtain ⟨h1, h2⟩ := h
  have e1 : (bytes r).take 4 = word r.frame := rfl
  have e2 : ((bytes r).drop 4).take 4 = word (r.num + (if r.sof then 2 ^ 31 else 0) + (if r.eof then 2 ^ 30 else 0)) := rfl
  have e3 : (bytes r).drop 8 = r.data := rfl
  obtain ⟨f, n, s, e, d⟩ := r
  simp only at h1 h2 e1 e2 e3
  unfold toRaw
  rw [e1, e2, e3, le32_word _ h1, le32_word _ (by cases s <;> cases e <;> simp <;> omega)]
  cases s <;> cases e <;> simp <;> omega

theorem bytes_length (r : Raw) : 8 ≤ (bytes r).length := by
  simp only [bytes, word, List.length_append, List.length_cons, List.length_nil]
  omega

theorem prepare_plain (frames : List Frame) (w : Wire) (snap : Nat) (r : Raw) (hv : w.Valid) (hp : w.pad = [])
    (hs : w.all.length ≤ snap) (hb : w.payload = bytes r) (hf : Fits r) : prepare frames (w.record snap) = extract frames r := by
  obtain ⟨he, ⟨n, rest, h5, h16, hi, hl⟩, hu⟩ := hv
  have hd : (w.record snap).data = w.all := by
    simp only [Wire.record]
    exact List.take_of_length_le hs
  have hh : headerSize (w.record snap) = some (22 + 4 * n) := by
    have : w.all[14]? = some (64 + n) := by
      simp only [Wire.all, List.append_assoc]
      rw [List.getElem?_append_right (by omega), he, hi]
      rfl
    simp only [headerSize, hd, this, Option.map_some]
    congr 1
    omega
  have hall : w.all.length = 22 + 4 * n + (bytes r).length := by
    simp only [Wire.all, hp, List.length_append, he, hl, hu, hb, List.length_nil]
    omega
  have hdrop : w.all.drop (22 + 4 * n) = bytes r := by
    have : w.all = (w.eth ++ w.ip ++ w.udp) ++ bytes r := by simp [Wire.all, hp, hb]
    rw [this]
    have hlen : (w.eth ++ w.ip ++ w.udp).length = 22 + 4 * n := by
      simp only [List.length_append, he, hl, hu]; omega
    rw [← hlen, List.drop_left]
  have h8 := bytes_length r
  unfold prepare
  rw [hh]
  simp only [hd]
  have hlen : (w.record snap).len = w.all.length := rfl
  rw [if_neg (by rw [hlen]; omega), hdrop, hlen]
  rw [List.take_of_length_le (by omega), toRaw_bytes r hf]

theorem prepareAll_plain (file : List Item) : ∀ (frames : List Frame) (rs : List Raw), (∀ i ∈ file, i.Valid) →
    (∀ i ∈ file, Plain i) → (∀ r ∈ rs, Fits r) → payloads file = rs.map bytes →
    prepareAll frames (file.map Item.record) = extractAll frames rs := by
  induction file with
  | nil =>
    intro frames rs _ _ _ hp
    cases rs with
    | nil => rfl
    | cons r rs => cases hp
  | cons i l ih =>
    intro frames rs hv hpl hf hp
    cases i with
    | other b => exact absurd (hpl _ (List.mem_cons_self ..)) (fun h => h)
    | dgram w snap =>
      cases rs with
      | nil => cases hp
      | cons r rs =>
        have h1 : w.payload = bytes r := by injection hp
        have h2 : payloads l = rs.map bytes := by injection hp
        have hv0 : w.Valid := hv (.dgram w snap) (List.mem_cons_self ..)
        have hp0 : w.pad = [] ∧ w.all.length ≤ snap := hpl (.dgram w snap) (List.mem_cons_self ..)
        have h3 : prepare frames (Item.record (.dgram w snap)) = extract frames r :=
          prepare_plain frames w snap r hv0 hp0.1 hp0.2 h1 (hf r (List.mem_cons_self ..))
        simp only [List.map_cons, prepareAll, extractAll, h3]
        cases extract frames r with
        | none => rfl
        | some g =>
          simp only [Option.bind_some]
          exact ih g rs (fun i hi => hv i (List.mem_cons_of_mem _ hi)) (fun i hi => hpl i (List.mem_cons_of_mem _ hi))
            (fun x hx => hf x (List.mem_cons_of_mem _ hx)) h2

theorem extractAll_append (fs : List Frame) (a b : List Raw) :
    extractAll fs (a ++ b) = (extractAll fs a).bind (extractAll · b) := by
  induction a generalizing fs with
  | nil => rfl
  | cons r a ih =>
    simp only [List.cons_append, extractAll]
    cases extract fs r with
    | none => rfl
    | some g => simp only [Option.bind_some]; exact ih g

theorem extractAll_whole (fs : List Frame) : ∀ acc, (∀ f ∈ fs, Whole f) → extractAll acc (sentBy fs) = some (fs.reverse ++ acc) := by
  induction fs with
  | nil => intro acc _; rfl
  | cons f fs ih =>
    intro acc h
    obtain ⟨r, rs, h1, h2, h3, h4⟩ := h f (List.mem_cons_self ..)
    have e : sentBy (f :: fs) = f.packets ++ sentBy fs := rfl
    rw [e, extractAll_append, h1, extractAll_frame acc r rs h3 h4]
    simp only [Option.bind_some]
    rw [ih _ (fun x hx => h x (List.mem_cons_of_mem _ hx)), ← h1, ← h2]
    simp

/-- What holds: if the file holds only these datagrams, each captured in full and without padding, then the frames are
stored as they were sent. -/
theorem C140_partial (fs : List Frame) (file : List Item) (hw : ∀ f ∈ fs, Whole f) (hf : ∀ r ∈ sentBy fs, Fits r)
    (hv : ∀ i ∈ file, i.Valid) (hp : payloads file = (sentBy fs).map bytes) (hpl : ∀ i ∈ file, Plain i) :
    load (file.map Item.record) = some fs := by
  unfold load
  rw [prepareAll_plain file [] (sentBy fs) hv hpl hf hp, extractAll_whole fs [] hw]
  simp

theorem extract_whole (fs gs : List Frame) (r : Raw) (h : ∀ f ∈ fs, Whole f) (he : extract fs r = some gs) : ∀ f ∈ gs, Whole f := by
  unfold extract at he
  cases hs : r.sof with
  | true =>
    rw [hs] at he
    simp only [if_true] at he
    injection he with he
    subst he
    intro f hf
    rcases List.mem_cons.mp hf with hf | hf
    · subst hf; exact ⟨r, [], rfl, rfl, hs, fun x hx => by cases hx⟩
    · exact h f hf
  | false =>
    rw [hs] at he
    simp only [Bool.false_eq_true, if_false] at he
    cases fs with
    | nil => cases he
    | cons f fs =>
      simp only at he
      injection he with he
      subst he
      intro g hg
      rcases List.mem_cons.mp hg with hg | hg
      · subst hg
        obtain ⟨a, as, h1, h2, h3, h4⟩ := h f (List.mem_cons_self ..)
        refine ⟨a, as ++ [r], by rw [h1]; rfl, h2, h3, ?_⟩
        intro x hx
        rcases List.mem_append.mp hx with hx | hx
        · exact h4 x hx
        · rw [List.mem_singleton.mp hx]; exact hs
      · exact h g (List.mem_cons_of_mem _ hg)

theorem extractAll_inv (rs : List Raw) : ∀ (fs gs : List Frame), (∀ f ∈ fs, Whole f) → extractAll fs rs = some gs → ∀ f ∈ gs, Whole f := by
  induction rs with
  | nil => intro fs gs h he; injection he with he; subst he; exact h
  | cons r rs ih =>
    intro fs gs h he
    simp only [extractAll] at he
    cases hx : extract fs r with
    | none => rw [hx] at he; cases he
    | some g =>
      rw [hx] at he
      exact ih g gs (extract_whole fs g r h hx) he

/-- Whatever a file holds: if the result is defined at all, the stored frames begin with a start of frame and have
no second one. -/
theorem C140_whole (file : List Rec) (fs : List Frame) (h : load file = some fs) : ∀ f ∈ fs, Whole f := by
  have key : ∀ (file : List Rec) (acc gs : List Frame), (∀ f ∈ acc, Whole f) → prepareAll acc file = some gs → ∀ f ∈ gs, Whole f := by
    intro file
    induction file with
    | nil => intro acc gs h he; injection he with he; subst he; exact h
    | cons r l ih =>
      intro acc gs h he
      simp only [prepareAll] at he
      cases hx : prepare acc r with
      | none => rw [hx] at he; cases he
      | some g =>
        rw [hx] at he
        refine ih g gs ?_ he
        unfold prepare at hx
        cases hh : headerSize r with
        | none => rw [hh] at hx; cases hx
        | some n =>
          rw [hh] at hx
          simp only at hx
          split at hx
          · cases hx
          · exact extract_whole acc g _ h hx
  unfold load at h
  cases hx : prepareAll [] file with
  | none => rw [hx] at h; cases h
  | some gs =>
    rw [hx] at h
    injection h with h
    subst h
    intro f hf
    exact key file [] gs (fun f hf => by cases hf) hx f (List.mem_reverse.mp hf)

/-- A file that does not begin with the first packet of a frame cannot be replayed. -/
theorem C140_start_violated (w : Wire) (snap : Nat) (rs : List Rec) (r : Raw) (hv : w.Valid) (hp : w.pad = [])
    (hs : w.all.length ≤ snap) (hb : w.payload = bytes r) (hf : Fits r) (hn : r.sof = false) : load (w.record snap :: rs) = none := by
  unfold load
  simp only [prepareAll, prepare_plain [] w snap r hv hp hs hb hf, extract, hn]
  rfl

/-! ## The simulator's own packets -/

theorem packets_fit (len frame : Nat) : ∀ (fuel num : Nat) (b : List Nat) (rs : List Raw),
    Simulator.packets len frame fuel num b = some rs → ∀ r ∈ rs, Fits r := by
  intro fuel
  induction fuel with
  | zero =>
    intro num b rs h
    cases b with
    | nil => simp only [Simulator.packets] at h; injection h with h; subst h; intro r hr; cases hr
    | cons x b => simp [Simulator.packets] at h
  | succ fuel ih =>
    intro num b rs h
    cases b with
    | nil => simp only [Simulator.packets] at h; injection h with h; subst h; intro r hr; cases hr
    | cons x b =>
      simp only [Simulator.packets] at h
      cases hx : Simulator.packets len frame fuel (num + 1)
        ((x :: b).drop (Simulator.nextPacket len frame num (x :: b)).data.length) with
      | none => rw [hx] at h; cases h
      | some l =>
        rw [hx] at h
        injection h with h
        subst h
        intro r hr
        rcases List.mem_cons.mp hr with hr | hr
        · subst hr
          unfold Simulator.nextPacket
          split <;> exact ⟨Nat.mod_lt _ (by decide), Nat.mod_lt _ (by decide)⟩
        · exact ih _ _ _ hx r hr

/-- All packets of stored frames come from what was extracted. -/
theorem extractAll_mem (P : Raw → Prop) (rs : List Raw) : ∀ (fs gs : List Frame), (∀ f ∈ fs, ∀ r ∈ f.packets, P r) →
    (∀ r ∈ rs, P r) → extractAll fs rs = some gs → ∀ f ∈ gs, ∀ r ∈ f.packets, P r := by
  induction rs with
  | nil => intro fs gs h _ he; injection he with he; subst he; exact h
  | cons r rs ih =>
    intro fs gs h hr he
    simp only [extractAll] at he
    cases hx : extract fs r with
    | none => rw [hx] at he; cases he
    | some g =>
      rw [hx] at he
      refine ih g gs ?_ (fun x hx => hr x (List.mem_cons_of_mem _ hx)) he
      have h0 : ∀ f ∈ (if r.sof then ({ number := r.frame } : Frame) :: fs else fs), ∀ x ∈ f.packets, P x := by
        intro f hf x hx
        cases hs : r.sof with
        | true =>
          rw [hs] at hf
          rcases List.mem_cons.mp hf with hf | hf
          · subst hf; cases hx
          · exact h f hf x hx
        | false => rw [hs] at hf; exact h f hf x hx
      unfold extract at hx
      generalize (if r.sof then ({ number := r.frame } : Frame) :: fs else fs) = l at hx h0
      cases l with
      | nil => cases hx
      | cons f l =>
        simp only at hx
        injection hx with hx
        subst hx
        intro k hk x hxk
        rcases List.mem_cons.mp hk with hk | hk
        · subst hk
          rcases List.mem_append.mp hxk with hxk | hxk
          · exact h0 f (List.mem_cons_self ..) x hxk
          · rw [List.mem_singleton.mp hxk]; exact hr r (List.mem_cons_self ..)
        · exact h0 k (List.mem_cons_of_mem _ hk) x hxk

theorem createFrom_whole (fuel pixels len : Nat) : ∀ (n k : Nat) (fs gs : List Frame), (∀ f ∈ fs, Whole f) →
    (∀ f ∈ fs, ∀ r ∈ f.packets, Fits r) → Simulator.createFrom fuel pixels len fs k n = .ok gs →
    (∀ f ∈ gs, Whole f) ∧ ∀ f ∈ gs, ∀ r ∈ f.packets, Fits r := by
  intro n
  induction n with
  | zero =>
    intro k fs gs h1 h2 h
    simp only [Simulator.createFrom] at h
    injection h with h
    subst h
    exact ⟨fun f hf => h1 f (List.mem_reverse.mp hf), fun f hf => h2 f (List.mem_reverse.mp hf)⟩
  | succ n ih =>
    intro k fs gs h1 h2 h
    simp only [Simulator.createFrom] at h
    cases hp : Simulator.packets len k fuel 0 (Simulator.image pixels) with
    | none => rw [hp] at h; cases h
    | some rs =>
      rw [hp] at h
      simp only at h
      cases he : extractAll fs rs with
      | none => rw [he] at h; cases h
      | some g =>
        rw [he] at h
        exact ih (k + 1) g gs (extractAll_inv rs fs g h1 he)
          (extractAll_mem Fits rs fs g h2 (packets_fit len k fuel 0 _ rs hp) he) h

/-- The frames the simulator makes up, captured on their way and replayed, are stored as the same frames, if the
packets are captured in full and none is short enough to be padded. -/
theorem C140_again (fuel pixels len n : Nat) (fs : List Frame) (file : List Item) (hc : Simulator.create fuel pixels len n = .ok fs)
    (hv : ∀ i ∈ file, i.Valid) (hp : payloads file = (sentBy fs).map bytes) (hpl : ∀ i ∈ file, Plain i) :
    load (file.map Item.record) = some fs := by
  obtain ⟨h1, h2⟩ := createFrom_whole fuel pixels len n 0 [] fs (fun f hf => by cases hf) (fun f hf => by cases hf) hc
  refine C140_partial fs file h1 ?_ hv hp hpl
  intro r hr
  obtain ⟨f, hf, hr⟩ := List.mem_flatMap.mp hr
  exact h2 f hf r hr

/-- Two frames of two packets, captured and loaded. -/
example : load ((([⟨3, [⟨3, 0, true, false, [1, 2]⟩, ⟨3, 1, false, true, [3]⟩]⟩, ⟨4, [⟨4, 0, true, false, [5, 6]⟩, ⟨4, 1, false, true, [7]⟩]⟩] :
      List Frame).flatMap (·.packets)).map fun r => (small r []).record 65535) =
    some [⟨3, [⟨3, 0, true, false, [1, 2]⟩, ⟨3, 1, false, true, [3]⟩]⟩, ⟨4, [⟨4, 0, true, false, [5, 6]⟩, ⟨4, 1, false, true, [7]⟩]⟩] := by
  decide +kernel

/-! ## C141 -/

/-- The frames of a file are replayed as often as asked for, over and over, and -1 means all of them once
(FrameSimulatorOptions.h:13). -/
def asked (frames : Int) (stored : Nat) : Option Nat :=
  if frames = -1 then some stored else if 0 ≤ frames then some frames.toNat else none

def C141_statement : Prop :=
  ∀ (ports : Nat) (gap : Option Nat) (drop : Nat → Nat → Bool) (file : List Rec) (fs : List Frame) (frames : Int) (k : Nat),
    load file = some fs → fs ≠ [] → gap ≠ some 0 → asked frames fs.length = some k →
    ∃ l, simulate ports gap drop file frames = some l ∧
      l.map (·.packet) = (Simulator.Spec.expected ports drop fs k).map (·.packet)

/-- The property does not hold: for -1 nothing is sent. -/
theorem C141_all_violated (ports : Nat) (gap : Option Nat) (drop : Nat → Nat → Bool) (file : List Rec) (fs : List Frame)
    (h : load file = some fs) : simulate ports gap drop file (-1) = some [] := by
  unfold simulate
  rw [h]
  rfl

theorem C141_violated : ¬ C141_statement := by
  intro h
  have hl : load [(small r0 []).record 100] = some [f0] := by decide +kernel
  obtain ⟨l, h1, h2⟩ := h 1 none (fun _ _ => false) _ [f0] (-1) 1 hl (by decide) (by decide) (by decide)
  rw [C141_all_violated 1 none _ _ _ hl] at h1
  injection h1 with h1
  subst h1
  exact absurd h2 (by decide +kernel)

/-- What holds: for numbers that are not negative. -/
theorem C141_partial (ports : Nat) (gap : Option Nat) (drop : Nat → Nat → Bool) (file : List Rec) (fs : List Frame) (frames : Int) (k : Nat)
    (h : load file = some fs) (hn : fs ≠ []) (hg : gap ≠ some 0) (h0 : 0 ≤ frames) (hk : asked frames fs.length = some k) :
    ∃ l, simulate ports gap drop file frames = some l ∧
      l.map (·.packet) = (Simulator.Spec.expected ports drop fs k).map (·.packet) := by
  have e : k = frames.toNat := by
    unfold asked at hk
    rw [if_neg (by omega), if_pos h0] at hk
    injection hk with hk
    exact hk.symm
  subst e
  obtain ⟨l, h1, h2⟩ := Simulator.C82_packets ports gap drop fs frames.toNat hg hn
  refine ⟨l, ?_, h2⟩
  unfold simulate
  rw [h]
  exact h1

theorem flatMap_same {α β : Type} {l : List α} {f g : α → List β} (h : ∀ x ∈ l, f x = g x) : l.flatMap f = l.flatMap g := by
  rw [List.flatMap_def, List.flatMap_def, List.map_congr_left h]

theorem flatMap_range (fs : List Frame) :
    (List.range fs.length).flatMap (fun f => ((fs[f]?).map (·.packets)).getD []) = fs.flatMap (·.packets) := by
  induction fs with
  | nil => rfl
  | cons a l ih =>
    rw [List.length_cons, List.range_succ_eq_map, List.flatMap_cons, List.flatMap_map, List.flatMap_cons, ← ih]
    rfl

/-- Captured once, replayed as often as there are frames, without dropping: the datagrams are the captured ones, in the
order of the capture. -/
theorem C141_once (ports : Nat) (file : List Item) (fs : List Frame) (hw : ∀ f ∈ fs, Whole f) (hf : ∀ r ∈ sentBy fs, Fits r)
    (hv : ∀ i ∈ file, i.Valid) (hp : payloads file = (sentBy fs).map bytes) (hpl : ∀ i ∈ file, Plain i) (hn : fs ≠ []) :
    ∃ l, simulate ports none (fun _ _ => false) (file.map Item.record) fs.length = some l ∧
      l.map (fun x => bytes x.packet) = payloads file := by
  have hl := C140_partial fs file hw hf hv hp hpl
  obtain ⟨l, h1, h2⟩ := C141_partial ports none (fun _ _ => false) _ fs fs.length fs.length hl hn (by decide) (by omega)
    (by unfold asked; rw [if_neg (by omega), if_pos (by omega)]; rfl)
  refine ⟨l, h1, ?_⟩
  have h3 : (Simulator.Spec.expected ports (fun _ _ => false) fs fs.length).map (·.packet) = sentBy fs := by
    unfold Simulator.Spec.expected Simulator.Spec.kept
    rw [List.map_flatMap]
    have hk : ∀ (p : Nat) (l : List Raw), (((l.zipIdx.filter fun _ => !false).map fun x => (⟨p, x.1⟩ : Sent)).map (·.packet)) = l := by
      intro p l
      have hfl : (l.zipIdx.filter fun _ => !false) = l.zipIdx := List.filter_eq_self.mpr (fun _ _ => rfl)
      rw [hfl, List.map_map]
      have : ((fun x : Sent => x.packet) ∘ fun x : Raw × Nat => (⟨p, x.1⟩ : Sent)) = Prod.fst := rfl
      rw [this, List.zipIdx_map_fst]
    simp only [hk]
    have hr : ∀ f ∈ List.range fs.length, Simulator.Spec.round fs f = ((fs[f]?).map (·.packets)).getD [] := by
      intro f hf
      have hf := List.mem_range.mp hf
      unfold Simulator.Spec.round
      rw [Nat.mod_eq_of_lt hf, List.getElem?_eq_getElem hf]
      rfl
    unfold sentBy
    rw [flatMap_same hr, flatMap_range]
  rw [hp, ← h3, ← h2, List.map_map]
  rfl

end Verif.Capture
