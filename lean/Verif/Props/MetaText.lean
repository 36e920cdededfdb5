import Verif.Model.MetaText
import Verif.Props.JsonDoubles
/-!
C125: a subscriber reads the header of a meta data message as it was given.
C126: a subscriber reads exactly what an acquisition tells.
-/
namespace Verif.MetaText
open Verif.Ipc (Str Json)
open Verif.JsonText

/-! ## Texts of the grammar contain no NUL character -/

theorem cstr_self (s : Str) (h : '\x00' ∉ s) : cstr s = s := by
  unfold cstr
  induction s with
  | nil => rfl
  | cons c s ih =>
    rw [List.mem_cons, not_or] at h
    rw [List.takeWhile_cons, if_pos (by simpa using fun e => h.1 (Eq.symm e)), ih h.2]

mutual
theorem okay_nul (D : Nat → Option Str) (V : Str → Option Nat) (hN : ∀ d t, D d = some t → '\x00' ∉ t) (j : Json)
    (h : Okay D V j) : '\x00' ∉ text D j := by
  match j with
  | .null => simp only [text]; decide
  | .bool true => simp only [text]; decide
  | .bool false => simp only [text]; decide
  | .num i => simp only [text]; exact decimal_nul i
  | .dbl d =>
    obtain ⟨t, e, _⟩ := h
    simp only [text, e, Option.getD_some]
    exact hN d t e
  | .str s => simp only [text]; exact quoted_nul s
  | .arr l =>
    have := okayL_nul D V hN l true h
    simp only [text, List.mem_cons, List.mem_append, List.not_mem_nil, or_false, not_or]
    exact ⟨by decide, this, by decide⟩
  | .obj l =>
    have := okayM_nul D V hN l true h
    simp only [text, List.mem_cons, List.mem_append, List.not_mem_nil, or_false, not_or]
    exact ⟨by decide, this, by decide⟩
theorem okayL_nul (D : Nat → Option Str) (V : Str → Option Nat) (hN : ∀ d t, D d = some t → '\x00' ∉ t) (l : List Json)
    (b : Bool) (h : OkayL D V l) : '\x00' ∉ textL D b l := by
  match l with
  | [] => simp [textL]
  | j :: l =>
    have h1 := okay_nul D V hN j h.1
    have h2 := okayL_nul D V hN l false h.2
    simp only [textL, List.mem_append, not_or]
    exact ⟨by cases b <;> decide, h1, h2⟩
theorem okayM_nul (D : Nat → Option Str) (V : Str → Option Nat) (hN : ∀ d t, D d = some t → '\x00' ∉ t)
    (l : List (Str × Json)) (b : Bool) (h : OkayM D V l) : '\x00' ∉ textM D b l := by
  match l with
  | [] => simp [textM]
  | (k, j) :: l =>
    have h1 := okay_nul D V hN j h.1
    have h2 := okayM_nul D V hN l false h.2
    simp only [textM, List.mem_append, List.mem_cons, not_or]
    exact ⟨by cases b <;> decide, quoted_nul k, by decide, h1, h2⟩
end

/-! ## Depth and brackets -/

theorem brackets_append (a b : Str) : brackets (a ++ b) = brackets a + brackets b := by
  simp [brackets, List.countP_append]

theorem brackets_cons (c : Char) (s : Str) : brackets (c :: s) = brackets [c] + brackets s :=
  brackets_append [c] s

mutual
theorem jval_depth {V : Str → Option Nat} {t : Str} {j : Json} (h : JVal V t j) : depth j ≤ brackets t + 1 := by
  match h with
  | .null => simp [depth]
  | .true => simp [depth]
  | .false => simp [depth]
  | .int _ _ _ => simp [depth]
  | .dbl _ _ _ _ _ _ _ _ _ => simp [depth]
  | .str _ _ _ => simp [depth]
  | .arr0 _ _ => simp [depth, depthL]
  | .obj0 _ _ => simp [depth, depthM]
  | .arr t l h =>
    have := jelems_depth h
    have hb : brackets ['['] = 1 := by decide
    rw [brackets_cons, brackets_append, hb]
    simp only [depth]
    omega
  | .obj t l h =>
    have := jmembers_depth h
    have hb : brackets ['{'] = 1 := by decide
    rw [brackets_cons, brackets_append, hb]
    simp only [depth]
    omega
theorem jelems_depth {V : Str → Option Nat} {t : Str} {l : List Json} (h : JElems V t l) : depthL l ≤ brackets t + 1 := by
  match h with
  | .one a t b v _ hv _ =>
    have := jval_depth hv
    simp only [brackets_append, depthL]
    omega
  | .more a t b v t' l _ hv _ hl =>
    have := jval_depth hv
    have := jelems_depth hl
    rw [brackets_append, brackets_append, brackets_append, brackets_cons]
    simp only [depthL]
    omega
theorem jmembers_depth {V : Str → Option Nat} {t : Str} {l : List (Str × Json)} (h : JMembers V t l) :
    depthM l ≤ brackets t + 1 := by
  match h with
  | .one a k t b v _ hv _ =>
    have := jval_depth hv
    simp only [brackets_append, depthM]
    omega
  | .more a k t b v t' l _ hv _ hl =>
    have := jval_depth hv
    have := jmembers_depth hl
    rw [brackets_append, brackets_append, brackets_append, brackets_cons]
    simp only [depthM]
    omega
end

/-- A document is at most as deep as its text has opening brackets, and one more. -/
theorem jtext_depth {V : Str → Option Nat} {s : Str} {j : Json} (h : JText V s j) : depth j ≤ brackets s + 1 := by
  obtain ⟨a, t, b, e, rfl, _, hv, _⟩ := h
  have := jval_depth hv
  simp only [brackets_append]
  omega

/-! ## What is sent for a header -/

/-- A text of the grammar alone: the whole of it, not up to a NUL character. -/
def Json.Of (V : Str → Option Nat) (s : Str) (j : Json) : Prop := '\x00' ∉ s ∧ JText V s j

/-- What a subscriber should find in the header: the document the text denotes, or the text itself if it denotes none. -/
def Means (V : Str → Option Nat) (s : Str) (j : Json) : Prop :=
  Json.Of V s j ∨ ((¬ ∃ k, Json.Of V s k) ∧ j = .str s)

/-- The document a subscriber should read from the first part. -/
def expected (m : Msg) (j : Json) : Json :=
  .obj [("plugin".toList, .str m.name), ("parameter".toList, .str m.item), ("type".toList, .str m.type), ("header".toList, j)]

/-- How numbers are written and read: what is written for a number is a text of the grammar without NUL characters. -/
def Numbers (D : Nat → Option Str) : Prop := ∀ d t, D d = some t → '\x00' ∉ t

/-- C125, full statement: whatever the message and its header, with a stack that holds it, the first part is a text of
the grammar with the header's meaning, and the second part is the data. -/
def C125_statement (D : Nat → Option Str) (V : Str → Option Nat) : Prop :=
  ∀ m room, brackets m.header < room → (∀ k, Json.Of V m.header k → Okay D V k) →
    ∃ t j, forward D V room m = some (t, m.data) ∧ Means V m.header j ∧ Json.Of V t (expected m j)

/-- What is sent for a document that survives writing. -/
theorem parts_ok (D : Nat → Option Str) (V : Str → Option Nat) (hN : Numbers D) (m : Msg) (j : Json) (h : Okay D V j) :
    ∃ t, parts D m j = (t, m.data) ∧ Json.Of V t (expected m j) := by
  have ho : Okay D V (expected m j) := ⟨trivial, trivial, trivial, h, trivial⟩
  obtain ⟨e1, e2, _⟩ := C116_doubles D V _ ho _ (Nat.le_refl _)
  have hn : '\x00' ∉ write D (expected m j) := by rw [e1]; exact okay_nul D V hN _ ho
  exact ⟨_, by unfold parts; rw [show firstDoc m j = expected m j from rfl, cstr_self _ hn], hn, e2⟩

/-- A header with a NUL character is cut there for reading: this one is no JSON, but is sent as the number 1. -/
theorem C125_violated (D : Nat → Option Str) (V : Str → Option Nat) : ¬ C125_statement D V := by
  intro h
  obtain ⟨t, j, e, hm, ho⟩ := h ⟨[], [], [], ['1', '\x00', 'x'], []⟩ 1 (by decide) (by
    intro k hk
    exact absurd hk.1 (by decide))
  have hj : j = .str ['1', '\x00', 'x'] := by
    rcases hm with hm | ⟨_, hm⟩
    · exact absurd hm.1 (by decide)
    · exact hm
  subst hj
  have e1 : forward D V 1 ⟨[], [], [], ['1', '\x00', 'x'], []⟩ = some (parts D ⟨[], [], [], ['1', '\x00', 'x'], []⟩ (.num 1)) := rfl
  rw [e1] at e
  have hf : Fits (expected ⟨[], [], [], ['1', '\x00', 'x'], []⟩ (.num 1)) := ⟨trivial, trivial, trivial, by
    show -(2 ^ 63 : Int) ≤ 1 ∧ (1 : Int) < 2 ^ 64
    decide, trivial⟩
  have hn := C116_nul D _ hf
  have ew := C119_written D V _ hf
  simp only [parts, Option.some.injEq, Prod.mk.injEq, and_true] at e
  rw [show firstDoc ⟨[], [], [], ['1', '\x00', 'x'], []⟩ (.num 1) = expected ⟨[], [], [], ['1', '\x00', 'x'], []⟩ (.num 1) from rfl,
    cstr_self _ hn] at e
  rw [e] at ew
  have := C119_unique V _ _ _ ew ho.2
  simp [expected] at this

theorem brackets_cstr (s : Str) : brackets (cstr s) ≤ brackets s := by
  have h := List.takeWhile_append_dropWhile (p := fun c => decide (c ≠ '\x00')) (l := s)
  have e := brackets_append (cstr s) (s.dropWhile (fun c => decide (c ≠ '\x00')))
  rw [show cstr s ++ s.dropWhile (fun c => decide (c ≠ '\x00')) = s from h] at e
  omega

/-- What holds: a header is read by a subscriber as the document it denotes, or as itself if it denotes none, unless it
has a NUL character and is a document up to it. -/
theorem C125_partial (D : Nat → Option Str) (V : Str → Option Nat) (hN : Numbers D) (m : Msg) (room : Nat)
    (hb : brackets m.header < room) (hk : ∀ k, Json.Of V m.header k → Okay D V k)
    (h0 : '\x00' ∈ m.header → ¬ ∃ k, JText V (cstr m.header) k) :
    ∃ t j, forward D V room m = some (t, m.data) ∧ Means V m.header j ∧ Json.Of V t (expected m j) := by
  by_cases hj : ∃ k, JText V (cstr m.header) k
  · have h1 : '\x00' ∉ m.header := fun h => h0 h hj
    have hc := cstr_self _ h1
    rw [hc] at hj
    obtain ⟨k, hj⟩ := hj
    have hd : parse V room m.header = .ok k [] :=
      (C119 V room m.header k).2 ⟨by have := jtext_depth hj; omega, hj⟩
    obtain ⟨t, e, ho⟩ := parts_ok D V hN m k (hk k ⟨h1, hj⟩)
    exact ⟨t, k, by unfold forward; rw [hc, hd]; exact congrArg some e, Or.inl ⟨h1, hj⟩, ho⟩
  · have hd := C119_refused V room (cstr m.header) (Nat.lt_of_le_of_lt (brackets_cstr _) hb) hj
    obtain ⟨t, e, ho⟩ := parts_ok D V hN m (.str m.header) trivial
    refine ⟨t, _, by unfold forward; rw [hd]; exact congrArg some e, Or.inr ⟨?_, rfl⟩, ho⟩
    rintro ⟨k, hk⟩
    rw [cstr_self _ hk.1] at hj
    exact hj ⟨k, hk.2⟩

/-- Two headers that subscribers cannot tell apart: a word, and the same word as a JSON string. -/
theorem C125_same (D : Nat → Option Str) (V : Str → Option Nat) (room : Nat) (h : 0 < room) (n i t d : Str) :
    forward D V room ⟨n, i, t, "ab".toList, d⟩ = forward D V room ⟨n, i, t, "\"ab\"".toList, d⟩ := by
  cases room with
  | zero => omega
  | succ r => rfl

/-- Non-vacuity: a header that is no JSON and one that is. -/
example : forward (fun _ => none) (fun _ => none) 2 ⟨"p".toList, "i".toList, "raw".toList, [], [' ', '\x00']⟩ =
    some ("{\"plugin\":\"p\",\"parameter\":\"i\",\"type\":\"raw\",\"header\":\"\"}".toList, [' ', '\x00']) := by
  decide +kernel
example : forward (fun _ => none) (fun _ => none) 2 ⟨"p".toList, "i".toList, "raw".toList, " {\"a\" : 7}".toList, []⟩ =
    some ("{\"plugin\":\"p\",\"parameter\":\"i\",\"type\":\"raw\",\"header\":{\"a\":7}}".toList, []) := by
  decide +kernel

/-! ## The messages of an acquisition -/

/-- A `size_t`. -/
def U64 (n : Nat) : Prop := n < 2 ^ 64

/-- The numbers of an event are of their types. -/
def Event.ok : Event → Prop
  | .start => True
  | .create _ d => U64 d
  | .write f o w l => U64 f ∧ U64 o ∧ U64 w ∧ U64 l
  | .close _ d => U64 d
  | .stop => True

/-- The kinds of events and their names. -/
def Event.kind : Event → Fin 5
  | .start => 0
  | .create .. => 1
  | .write .. => 2
  | .close .. => 3
  | .stop => 4

def kindName : Fin 5 → Str
  | 0 => "startacquisition".toList
  | 1 => "createfile".toList
  | 2 => "writeframe".toList
  | 3 => "closefile".toList
  | 4 => "stopacquisition".toList

def Event.item (e : Event) : Str := kindName e.kind

/-- Whether the number of frames of the acquisition is told as well. -/
def Event.withTotal : Event → Bool
  | .start => true
  | .create .. => true
  | _ => false

/-- The first part a subscriber should read. -/
def first (a : Acq) (e : Event) : Json :=
  .obj [("plugin".toList, .str "Acquisition".toList), ("parameter".toList, .str e.item), ("type".toList, .str "string".toList),
    ("header".toList, .obj (("acqID".toList, .str a.id) :: ("rank".toList, .num a.rank) ::
      (if e.withTotal then [("totalFrames".toList, .num a.total)] else [])))]

/-- The second part a subscriber should read: nothing, or a document. -/
def second (a : Acq) : Event → Option Json
  | .start => none
  | .create p d => some (.obj [("filePath".toList, .str p), ("create_duration".toList, .num d)])
  | .write f o w l => some (.obj [("frame".toList, .num f), ("offset".toList, .num o), ("proc".toList, .num a.processes),
      ("write_duration".toList, .num w), ("flush_duration".toList, .num l)])
  | .close p d => some (.obj [("filePath".toList, .str p), ("close_duration".toList, .num d)])
  | .stop => none

/-- The bytes of the second part: none, or a text of the grammar with this document. -/
def Reads (V : Str → Option Nat) (s : Str) : Option Json → Prop
  | none => s = []
  | some j => Json.Of V s j

theorem num_fits (n : Nat) (h : U64 n) : Fits (.num n) := by
  unfold U64 at h
  show -(2 ^ 63 : Int) ≤ n ∧ (n : Int) < 2 ^ 64
  omega

/-- What `JsonDict` makes of members that fit. -/
theorem dict_ok (D : Nat → Option Str) (V : Str → Option Nat) (l : List (Str × Json)) (h : FitsM l) :
    Json.Of V (dict D l) (.obj l) ∧ dict D l = write D (.obj l) := by
  have hn := C116_nul D (.obj l) h
  have e : dict D l = write D (.obj l) := cstr_self _ hn
  rw [e]
  exact ⟨⟨hn, C119_written D V _ h⟩, rfl⟩

attribute [local irreducible] dict write parse

theorem forward_dict (D : Nat → Option Str) (V : Str → Option Nat) (room : Nat) (m : Msg) (l : List (Str × Json)) (h : FitsM l)
    (hh : m.header = dict D l) (hd : depth (.obj l) ≤ room) :
    ∃ t, forward D V room m = some (t, m.data) ∧ Json.Of V t (expected m (.obj l)) := by
  obtain ⟨⟨hn, hj⟩, e⟩ := dict_ok D V l h
  have hp : parse V room (cstr m.header) = .ok (.obj l) [] := by
    rw [hh, cstr_self _ hn]
    exact (C119 V room _ _).2 ⟨hd, hj⟩
  have hf : Fits (expected m (.obj l)) := ⟨trivial, trivial, trivial, h, trivial⟩
  have hn2 := C116_nul D _ hf
  refine ⟨write D (expected m (.obj l)), ?_, hn2, C119_written D V _ hf⟩
  unfold forward
  rw [hp]
  show some (parts D m (.obj l)) = _
  unfold parts
  rw [show firstDoc m (.obj l) = expected m (.obj l) from rfl, cstr_self _ hn2]

/-- C126: of every event of every acquisition a subscriber reads, in texts of the grammar without NUL characters, exactly
the plugin, the item, the acquisition id, the rank, the number of frames where it is told, and the values of the event,
whatever bytes the id and the path contain. -/
theorem C126 (D : Nat → Option Str) (V : Str → Option Nat) (room : Nat) (hr : 2 ≤ room) (a : Acq) (e : Event)
    (ha : U64 a.rank ∧ U64 a.processes ∧ U64 a.total) (he : e.ok) :
    ∃ t d, forward D V room (toMsg D a e) = some (t, d) ∧ Json.Of V t (first a e) ∧ Reads V d (second a e) := by
  obtain ⟨h1, h2, h3⟩ := ha
  have f1 := num_fits _ h1
  have f2 := num_fits _ h2
  have f3 := num_fits _ h3
  have k1 : FitsM [("acqID".toList, .str a.id), ("rank".toList, .num a.rank)] := ⟨trivial, f1, trivial⟩
  have k2 : FitsM [("acqID".toList, .str a.id), ("rank".toList, .num a.rank), ("totalFrames".toList, .num a.total)] :=
    ⟨trivial, f1, f3, trivial⟩
  have d1 : depth (.obj [("acqID".toList, .str a.id), ("rank".toList, .num a.rank)]) ≤ room := by
    simp only [depth, depthM]
    omega
  have d2 : depth (.obj [("acqID".toList, .str a.id), ("rank".toList, .num a.rank), ("totalFrames".toList, .num a.total)]) ≤
      room := by
    simp only [depth, depthM]
    omega
  cases e with
  | start =>
    obtain ⟨t, e1, e2⟩ := forward_dict D V room (toMsg D a .start) _ k2 rfl d2
    exact ⟨t, _, e1, e2, rfl⟩
  | create p d =>
    obtain ⟨t, e1, e2⟩ := forward_dict D V room (toMsg D a (.create p d)) _ k2 rfl d2
    exact ⟨t, _, e1, e2, (dict_ok D V [("filePath".toList, .str p), ("create_duration".toList, .num d)]
      ⟨trivial, num_fits _ he, trivial⟩).1⟩
  | write f o w l =>
    obtain ⟨t, e1, e2⟩ := forward_dict D V room (toMsg D a (.write f o w l)) _ k1 rfl d1
    exact ⟨t, _, e1, e2, (dict_ok D V [("frame".toList, .num f), ("offset".toList, .num o), ("proc".toList, .num a.processes),
      ("write_duration".toList, .num w), ("flush_duration".toList, .num l)]
      ⟨num_fits _ he.1, num_fits _ he.2.1, f2, num_fits _ he.2.2.1, num_fits _ he.2.2.2, trivial⟩).1⟩
  | close p d =>
    obtain ⟨t, e1, e2⟩ := forward_dict D V room (toMsg D a (.close p d)) _ k1 rfl d1
    exact ⟨t, _, e1, e2, (dict_ok D V [("filePath".toList, .str p), ("close_duration".toList, .num d)]
      ⟨trivial, num_fits _ he, trivial⟩).1⟩
  | stop =>
    obtain ⟨t, e1, e2⟩ := forward_dict D V room (toMsg D a .stop) _ k1 rfl d1
    exact ⟨t, _, e1, e2, rfl⟩

/-- Different events, or the same event of acquisitions that differ in what is told, are told differently. -/
theorem C126_injective (D : Nat → Option Str) (V : Str → Option Nat) (room : Nat) (hr : 2 ≤ room) (a b : Acq) (e f : Event)
    (ha : U64 a.rank ∧ U64 a.processes ∧ U64 a.total) (hb : U64 b.rank ∧ U64 b.processes ∧ U64 b.total) (he : e.ok) (hf : f.ok)
    (h : forward D V room (toMsg D a e) = forward D V room (toMsg D b f)) : e = f ∧ a.id = b.id ∧ a.rank = b.rank := by
  obtain ⟨t, d, h1, h2, h3⟩ := C126 D V room hr a e ha he
  obtain ⟨t', d', h4, h5, h6⟩ := C126 D V room hr b f hb hf
  rw [h1, h4] at h
  cases h
  have e1 := C119_unique V _ _ _ h2.2 h5.2
  simp only [first, Json.obj.injEq, List.cons.injEq, Prod.mk.injEq, true_and, and_true, Json.str.injEq, Json.num.injEq] at e1
  obtain ⟨ei, hid, hrank, _⟩ := e1
  refine ⟨?_, hid, Int.ofNat.inj hrank⟩
  clear h1 h2 h4 h5
  have hc : ∀ x y : Option Json, x = second a e → y = second b f → Reads V d x → Reads V d y → x.isSome = y.isSome → x = y := by
    intro x y _ _ hx hy hs
    cases x <;> cases y <;> first
      | exact congrArg some (C119_unique V _ _ _ hx.2 hy.2)
      | rfl
      | cases hs
  have e2 := hc _ _ rfl rfl h3 h6
  clear h3 h6 hc ha hb he hf hr hid hrank
  have ek : e.kind = f.kind := (by decide +kernel : ∀ i j : Fin 5, kindName i = kindName j → i = j) _ _ ei
  clear ei
  cases e <;> cases f <;> first | (exfalso; revert ek; simp [Event.kind]; done) | skip
  · rfl
  · have e2 := e2 rfl
    simp only [second, Option.some.injEq, Json.obj.injEq, List.cons.injEq, Prod.mk.injEq, true_and, and_true, Json.str.injEq,
      Json.num.injEq] at e2
    rw [e2.1, Int.ofNat.inj e2.2]
  · have e2 := e2 rfl
    simp only [second, Option.some.injEq, Json.obj.injEq, List.cons.injEq, Prod.mk.injEq, true_and, and_true, Json.str.injEq,
      Json.num.injEq] at e2
    rw [Int.ofNat.inj e2.1, Int.ofNat.inj e2.2.1, Int.ofNat.inj e2.2.2.2.1, Int.ofNat.inj e2.2.2.2.2]
  · have e2 := e2 rfl
    simp only [second, Option.some.injEq, Json.obj.injEq, List.cons.injEq, Prod.mk.injEq, true_and, and_true, Json.str.injEq,
      Json.num.injEq] at e2
    rw [e2.1, Int.ofNat.inj e2.2]
  · rfl

/-- Non-vacuity: a frame of an acquisition whose id contains a quote. -/
example : forward (fun _ => none) (fun _ => none) 2 (toMsg (fun _ => none) ⟨"a\"b".toList, 1, 2, 10⟩ (.write 3 4 5 6)) =
    some ("{\"plugin\":\"Acquisition\",\"parameter\":\"writeframe\",\"type\":\"string\",\"header\":{\"acqID\":\"a\\\"b\",\"rank\":1}}".toList,
      "{\"frame\":3,\"offset\":4,\"proc\":2,\"write_duration\":5,\"flush_duration\":6}".toList) := by decide +kernel

end Verif.MetaText
