import Verif.Model.Kafka
/-! Properties C25 (message framing) and C58 (counting) of the Kafka plugin. -/
namespace Verif.Kafka

namespace Spec

/-- What a consumer does: read the length, then so many bytes of terminated header text; the rest is the
payload. `none` if a byte is not defined or missing. -/
def consume (msg : List (Option Nat)) : Option (List Nat × List Nat) := do
  let bytes ← msg.mapM id
  match bytes with
  | lo :: hi :: rest =>
    let n := lo + 256 * hi
    if n ≤ rest.length then
      match (rest.take n).reverse with
      | 0 :: text => some (text.reverse, rest.drop n)
      | _ => none
    else none
  | _ => none

/-- The image of a frame. -/
def image (f : Frame) : List Nat := (f.data.drop f.imageOffset).take f.imageSize

end Spec
open Spec

theorem mapM_some (l : List Nat) : (l.map some).mapM (m := Option) id = some l := by
  induction l with
  | nil => rfl
  | cons a l ih => simp [List.mapM_cons, ih]

/-- The message, for a header whose length fits. -/
theorem assemble_eq (text : List Nat) (f : Frame) (h : text.length < 65535) :
    assemble text f = some (([(text.length + 1) % 256, (text.length + 1) / 256] ++ (text ++ [0]) ++ f.data).map some) := by
  have hm : (text.length + 1) % 2 ^ 16 = text.length + 1 := Nat.mod_eq_of_lt (by omega)
  unfold assemble
  dsimp only
  rw [hm]
  have ht : (text ++ [0]).take (text.length + 1) = text ++ [0] := by
    rw [List.take_of_length_le (by simp)]
  rw [ht]
  have e : (List.replicate (2 + text.length + 1 + f.data.length) (none : Option Nat))
      = List.replicate 2 none ++ (List.replicate (text.length + 1) none ++ List.replicate f.data.length none) := by
    rw [← List.append_assoc, List.replicate_append_replicate, List.replicate_append_replicate]; congr 1
  rw [e]
  have put_mid : ∀ (a b c : List (Option Nat)) (src : List Nat), b.length = src.length →
      put (a ++ (b ++ c)) a.length src = some (a ++ (src.map some ++ c)) := by
    intro a b c src hl
    unfold put
    rw [if_pos (by simp; omega)]
    congr 1
    rw [List.take_left', List.append_assoc, ← List.drop_drop, List.drop_left' rfl, ← hl, List.drop_left' rfl]
    rfl
  have p1 := put_mid [] (List.replicate 2 none) (List.replicate (text.length + 1) none ++ List.replicate f.data.length none)
    [(text.length + 1) % 256, (text.length + 1) / 256] rfl
  simp only [List.nil_append, List.length_nil] at p1
  rw [p1]
  simp only [Option.bind_some]
  have p2 := put_mid ([(text.length + 1) % 256, (text.length + 1) / 256].map some)
    (List.replicate (text.length + 1) none) (List.replicate f.data.length none) (text ++ [0]) (by simp)
  simp only [List.length_map, List.length_cons, List.length_nil] at p2
  rw [p2]
  simp only [Option.bind_some]
  have p3 := put_mid ([(text.length + 1) % 256, (text.length + 1) / 256].map some ++ (text ++ [0]).map some)
    (List.replicate f.data.length none) [] f.data (by simp)
  simp only [List.append_nil, List.length_append, List.length_map, List.length_cons, List.length_nil, Nat.zero_add, List.append_assoc] at p3
  rw [show 2 + (text.length + 1) = 1 + 1 + (text.length + 1) from rfl, p3]
  simp [List.map_append]

/-- C25, proved part: with a header text of less than 65535 bytes the consumer recovers exactly the header
text and the frame data, for every header and data. -/
theorem C25_partial (text : List Nat) (f : Frame) (h : text.length < 65535) :
    ∃ m, createMessage text f = .ok m ∧ consume m = some (text, f.data) := by
  unfold createMessage
  rw [if_neg (by omega), assemble_eq text f h]
  refine ⟨_, rfl, ?_⟩
  unfold consume
  rw [mapM_some]
  simp only [Option.bind_eq_bind, Option.bind_some, List.cons_append, List.nil_append, List.append_assoc]
  have hn : (text.length + 1) % 256 + 256 * ((text.length + 1) / 256) = text.length + 1 := by omega
  rw [hn, if_pos (by simp)]
  have h1 : (text ++ (0 :: f.data)).take (text.length + 1) = text ++ [0] := by
    rw [show text ++ (0 :: f.data) = (text ++ [0]) ++ f.data by simp, List.take_left' (by simp)]
  have h2 : (text ++ (0 :: f.data)).drop (text.length + 1) = f.data := by
    rw [show text ++ (0 :: f.data) = (text ++ [0]) ++ f.data by simp, List.drop_left' (by simp)]
  rw [h1, h2]
  simp

/-- C25: if the image is the whole frame data (no offset, full size), the consumer recovers the image. -/
theorem C25_image_partial (text : List Nat) (f : Frame) (h : text.length < 65535) (ho : f.imageOffset = 0)
    (hs : f.imageSize = f.data.length) :
    ∃ m, createMessage text f = .ok m ∧ consume m = some (text, image f) := by
  have : image f = f.data := by unfold image; rw [ho, hs]; simp
  rw [this]
  exact C25_partial text f h

/-- C25: a header text of more than 65535 bytes is refused, nothing is sent. -/
theorem C25_too_big (s : State) (text : List Nat) (a : Bool) (f : Frame) (h : text.length > 65535) :
    processFrame s text a f = (s, { pushed := true }) := by
  unfold processFrame createMessage
  rw [if_pos h]
  split
  · split <;> rfl
  · rfl

/-- C25, full statement: whatever is sent is understood. -/
def C25_statement : Prop :=
  ∀ (text : List Nat) (f : Frame) (m : List (Option Nat)), createMessage text f = .ok m →
    consume m = some (text, image f)

theorem assemble_wrap (text : List Nat) (h : text.length = 65535) :
    assemble text { data := [] } = some ([some 0, some 0] ++ List.replicate 65536 none) := by
  unfold assemble
  dsimp only
  rw [h]
  have h0 : (65535 + 1) % 2 ^ 16 = 0 := by decide
  rw [h0, List.take_zero]
  have e : (List.replicate (2 + 65535 + 1 + ([] : List Nat).length) (none : Option Nat))
      = none :: none :: List.replicate 65536 none := by
    rw [List.length_nil]; rfl
  rw [e]
  generalize List.replicate 65536 (none : Option Nat) = tail
  simp [put]

/-- C25 is false of the code at exactly one header length: 65535 bytes pass the check, with the terminating
zero the length wraps to 0, and the header is not copied. -/
theorem C25_violated : ¬ C25_statement := by
  intro h
  have h1 := h (List.replicate 65535 1) { data := [] } ([some 0, some 0] ++ List.replicate 65536 none) (by
    unfold createMessage
    have hl : (List.replicate 65535 1).length = 65535 := List.length_replicate
    rw [if_neg (by rw [hl]; omega), assemble_wrap _ hl])
  have h2 : consume ([some 0, some 0] ++ List.replicate 65536 none) = none := by
    have e : List.replicate 65536 (none : Option Nat) = none :: List.replicate 65535 none := rfl
    rw [e]
    generalize List.replicate 65535 (none : Option Nat) = tail
    simp [consume, List.mapM_cons]
  rw [h2] at h1
  exact absurd h1 (Option.some_ne_none _).symm

/-- C25 is also false for frames whose image is not their whole data, e.g. compressed ones: the allocated
block is sent, not the image. -/
theorem C25_violated_image : ∃ (text : List Nat) (f : Frame) (m : List (Option Nat)),
    f.imageOffset + f.imageSize ≤ f.data.length ∧ createMessage text f = .ok m ∧
    consume m ≠ some (text, image f) :=
  ⟨[123, 125], { data := [9, 9, 0, 0], imageSize := 2 },
    [some 3, some 0, some 123, some 125, some 0, some 9, some 9, some 0, some 0], by decide, by decide, by decide⟩

/-- Non-vacuity of `C25_partial`. -/
example : createMessage [123, 125] { data := [7, 8], imageSize := 2 }
    = .ok [some 3, some 0, some 123, some 125, some 0, some 7, some 8] := by decide

/-! ## C58 -/

/-- The frames, each with its header text and the answer of the library. -/
def run (s : State) : List (List Nat × Bool × Frame) → State × List Out
  | [] => (s, [])
  | (t, a, f) :: xs =>
    let r := processFrame s t a f
    let r' := run r.1 xs
    (r'.1, r.2 :: r'.2)

/-- C58, full statement: every frame is passed on, defined; the sent counter is the number of messages handed over, and sent plus lost is the
number of frames of the dataset whose header was not too big. -/
def C58_statement : Prop :=
  ∀ (s : State) (xs : List (List Nat × Bool × Frame)),
    (∀ o ∈ (run s xs).2, o.pushed = true ∧ o.ub = false) ∧ (run s xs).2.length = xs.length ∧
    (run s xs).1.sent = s.sent + ((run s xs).2.filter (fun o => o.produced.isSome)).length ∧
    (run s xs).1.sent + (run s xs).1.lost
      = s.sent + s.lost + (xs.filter (fun x => x.2.2.dataset == s.dataset && decide (x.1.length < 65536))).length

/-- C58, proved part: every frame is passed on; the sent counter is the number of messages handed over, and sent plus
lost is the number of frames of the dataset whose header was not too big. -/
theorem C58_counters_partial (s : State) (xs : List (List Nat × Bool × Frame)) (ht : s.topic = true)
    (hs : ∀ x ∈ xs, x.1.length ≠ 65535) :
    (∀ o ∈ (run s xs).2, o.pushed = true ∧ o.ub = false) ∧ (run s xs).2.length = xs.length ∧
    (run s xs).1.sent = s.sent + ((run s xs).2.filter (fun o => o.produced.isSome)).length ∧
    (run s xs).1.sent + (run s xs).1.lost
      = s.sent + s.lost + (xs.filter (fun x => x.2.2.dataset == s.dataset && decide (x.1.length < 65536))).length := by
  induction xs generalizing s with
  | nil => simp [run]
  | cons x xs ih =>
    obtain ⟨t, a, f⟩ := x
    have hl : t.length ≠ 65535 := hs (t, a, f) (by simp)
    have hs' : ∀ x ∈ xs, x.1.length ≠ 65535 := fun x hx => hs x (List.mem_cons_of_mem _ hx)
    -- the four cases of one frame
    have step : ∃ s' o, processFrame s t a f = (s', o) ∧ o.pushed = true ∧ o.ub = false ∧ s'.topic = true ∧
        s'.dataset = s.dataset ∧ s'.sent = s.sent + (if o.produced.isSome then 1 else 0) ∧
        s'.sent + s'.lost = s.sent + s.lost + (if (f.dataset == s.dataset && decide (t.length < 65536)) = true then 1 else 0) := by
      by_cases hd : f.dataset = s.dataset
      · by_cases hb : t.length > 65535
        · exact ⟨s, _, C25_too_big s t a f hb, rfl, rfl, ht, rfl, by simp, by simp [hd]; omega⟩
        · obtain ⟨m, hm, _⟩ := C25_partial t f (by omega)
          cases a with
          | true =>
            refine ⟨{ s with sent := s.sent + 1 }, { pushed := true, produced := some m }, ?_, rfl, rfl, ht, rfl, rfl, ?_⟩
            · unfold processFrame; rw [if_pos hd, if_pos ht, hm]; rfl
            · rw [if_pos (by simp [hd]; omega)]; show s.sent + 1 + s.lost = _; omega
          | false =>
            refine ⟨{ s with lost := s.lost + 1 }, { pushed := true }, ?_, rfl, rfl, ht, rfl, by simp, ?_⟩
            · unfold processFrame; rw [if_pos hd, if_pos ht, hm]; rfl
            · rw [if_pos (by simp [hd]; omega)]; show s.sent + (s.lost + 1) = _; omega
      · refine ⟨s, { pushed := true }, ?_, rfl, rfl, ht, rfl, by simp, by simp [hd]⟩
        unfold processFrame; rw [if_neg hd]
    obtain ⟨s', o, he, hp, hu, ht', hd', h1, h2⟩ := step
    obtain ⟨i1, i2, i3, i4⟩ := ih s' ht' hs'
    have hr : run s ((t, a, f) :: xs) = ((run s' xs).1, o :: (run s' xs).2) := by
      simp only [run, he]
    rw [hr]
    refine ⟨?_, by simp [i2], ?_, ?_⟩
    · intro o' ho'
      rcases List.mem_cons.1 ho' with rfl | ho'
      · exact ⟨hp, hu⟩
      · exact i1 o' ho'
    · rw [List.filter_cons]
      show (run s' xs).1.sent = _
      rw [i3, h1]
      split
      · rw [List.length_cons]; omega
      · omega
    · rw [List.filter_cons]
      show (run s' xs).1.sent + (run s' xs).1.lost = _
      rw [i4, h2, hd']
      split
      · rw [List.length_cons]; omega
      · omega

/-- What is written to a message has to fit. -/
theorem C25_put (msg : List (Option Nat)) (pos : Nat) (src : List Nat) : put msg pos src = none ↔ msg.length < pos + src.length := by
  unfold put
  split <;> simp <;> omega

example : put [none, none] 1 [5, 6] = none ∧ put [none, none] 1 [5] = some [none, some 5] := by decide

/-- C58: without a topic nothing is sent or counted, and frames are passed on. -/
theorem C58_no_topic (s : State) (t : List Nat) (a : Bool) (f : Frame) (h : s.topic = false) :
    processFrame s t a f = (s, { pushed := true }) := by
  unfold processFrame
  rw [h]
  split <;> rfl

/-- So the full claim is false without a topic: the frames are neither sent nor counted as lost. -/
theorem C58_violated : ¬ C58_statement := by
  intro h
  have := (h { topic := false } [([1], true, { data := [5], dataset := "data" })]).2.2.2
  revert this
  decide

/-- Non-vacuity of C58. -/
example : ({ topic := true } : State).topic = true ∧
    (run { topic := true } [([1], true, { data := [5], dataset := "data" }), ([2], false, { data := [6], dataset := "data" }),
      ([3], true, { data := [7], dataset := "other" })]).1 = { topic := true, sent := 1, lost := 1 } := by decide

end Verif.Kafka
