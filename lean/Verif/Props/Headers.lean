import Verif.Model.Headers
import Verif.Props.JsonDoubles
import Verif.Props.Kafka

/-!
C120: a live viewer can tell everything about a frame from its header.
C121: a Kafka consumer can tell everything about a frame from its header.
-/
namespace Verif.Headers
open Verif.Ipc (Str Json)
open Verif.JsonText

namespace Spec

/-- The value of a member of a document. -/
def field (doc : Json) (name : Str) : Option Json :=
  match doc with
  | .obj l => (l.find? (fun m => m.1 == name)).map (·.2)
  | _ => none

/-- The number a decimal numeral denotes. -/
def numeral (s : Str) : Option Nat :=
  if s ≠ [] ∧ s.all (fun c => decide ('0' ≤ c ∧ c ≤ '9')) then
    some (s.foldl (fun n c => n * 10 + (c.toNat - '0'.toNat)) 0)
  else none

/-- The ranges of the C++ types. -/
structure Typed (f : Info) : Prop where
  number : -9223372036854775808 ≤ f.number ∧ f.number < 9223372036854775808
  offset : -9223372036854775808 ≤ f.offset ∧ f.offset < 9223372036854775808
  dataLen : f.dataLen < 18446744073709551616
  dims : ∀ d ∈ f.dims, d < 18446744073709551616
  ulong : ∀ p ∈ f.params, ∀ n, p.2 = .ulong n → n < 18446744073709551616
  names : (f.params.map (·.1)).Nodup

/-- A document says what a viewer should know. -/
structure Shows (tags : List Str) (f : Info) (doc : Json) : Prop where
  number : field doc "frame_num".toList = some (.num f.number)
  acqId : field doc "acquisition_id".toList = some (.str f.acqId)
  dtype : field doc "dtype".toList = some (.str (typeName f.dtype).toList)
  size : field doc "dsize".toList = some (.num f.image.length)
  dataset : field doc "dataset".toList = some (.str f.dataset)
  compression : field doc "compression".toList = some (.str (compressionName f.compression).toList)
  shape : ∃ l : List Str, field doc "shape".toList = some (.arr (l.map .str)) ∧ l.map numeral = f.dims.map some
  tags : field doc "tags".toList =
    if tags = [] then none else some (.arr ((tags.filter (fun t => decide (t ∈ f.params.map (·.1)))).map .str))

end Spec
open Spec

/-! ## Strings -/

theorem cstr_eq (s : Str) : cstr s = s ↔ '\x00' ∉ s := by
  unfold cstr
  constructor
  · intro h hm
    rw [← h] at hm
    have := List.all_eq_true.1 (List.all_takeWhile (p := fun c => decide (c ≠ '\x00')) (l := s)) _ hm
    simp at this
  · intro h
    induction s with
    | nil => rfl
    | cons c s ih =>
      simp only [List.mem_cons, not_or] at h
      rw [List.takeWhile_cons_of_pos (by simpa using fun e => h.1 e.symm), ih h.2]

theorem numeral_dec (n : Nat) : numeral (Receiver.dec n) = some n := by
  have hlt := Receiver.digitsF_lt (n + 1) n
  have hval := Receiver.digitsF_val (n + 1) n (by omega)
  obtain ⟨c, u, e, hc⟩ := dec_head n
  have key : ∀ d : Fin 10, decide ('0' ≤ Receiver.digitChar d.val ∧ Receiver.digitChar d.val ≤ '9') = true ∧
      (Receiver.digitChar d.val).toNat - '0'.toNat = d.val := by decide +kernel
  have hfold : ∀ (l : List Nat), (∀ d ∈ l, d < 10) → ∀ a, (l.map Receiver.digitChar).foldl
      (fun n c => n * 10 + (c.toNat - '0'.toNat)) a = l.foldl (fun a d => a * 10 + d) a := by
    intro l
    induction l with
    | nil => intro _ a; rfl
    | cons d l ih =>
      intro h a
      rw [List.map_cons, List.foldl_cons, List.foldl_cons, (key ⟨d, h d (by simp)⟩).2,
        ih (fun x hx => h x (by simp [hx]))]
  unfold numeral
  rw [if_pos]
  · show some (((Receiver.digitsF (n + 1) n).map Receiver.digitChar).foldl _ 0) = _
    rw [hfold _ hlt, hval]
  · refine ⟨by rw [e]; simp, ?_⟩
    rw [List.all_eq_true]
    intro c hc
    obtain ⟨d, hd, rfl⟩ := List.mem_map.1 hc
    exact (key ⟨d, hlt d hd⟩).1

/-! ## Live view -/

theorem fits_strs {α : Type} (l : List α) (g : α → Str) : FitsL (l.map (fun x => .str (g x))) := by
  induction l with
  | nil => trivial
  | cons x l ih => exact ⟨trivial, ih⟩

theorem depth_strs {α : Type} (l : List α) (g : α → Str) : depthL (l.map (fun x => .str (g x))) ≤ 1 := by
  induction l with
  | nil => simp [depthL]
  | cons x l ih => simp only [List.map_cons, depthL, depth]; omega

theorem live_fits (tags : List Str) (f : Info) : Fits (liveDoc tags f) := by
  have e63 : (2 : Int) ^ 63 = 9223372036854775808 := by decide
  have e64 : (2 : Int) ^ 64 = 18446744073709551616 := by decide
  refine ⟨?_, trivial, trivial, ?_, trivial, trivial, ?_⟩
  · simp only [Fits]
    omega
  · simp only [Fits]
    omega
  · unfold tagMember
    split
    · exact ⟨fits_strs _ _, trivial⟩
    · exact ⟨fits_strs _ _, fits_strs _ _, trivial⟩

theorem field_shape (tags : List Str) (f : Info) :
    field (liveDoc tags f) "shape".toList = some (.arr (f.dims.map (fun d => .str (Receiver.dec d)))) := by
  unfold liveDoc tagMember
  split <;> rfl

theorem field_tags (tags : List Str) (f : Info) : field (liveDoc tags f) "tags".toList =
    if tags = [] then none
    else some (.arr ((tags.filter (fun t => f.params.any (fun p => p.1 == t))).map (fun t => .str (cstr t)))) := by
  unfold liveDoc tagMember
  cases tags with
  | nil => rfl
  | cons t l => rfl

/-- The header is a text of the JSON grammar, denotes the document made, and is sent whole. -/
theorem C120_reads (D : Nat → Option Str) (V : Str → Option Nat) (tags : List Str) (f : Info) :
    JText V (liveMessage D tags f).1 (liveDoc tags f) ∧ (liveMessage D tags f).2 = f.image := by
  have h := live_fits tags f
  have e : (liveMessage D tags f).1 = write D (liveDoc tags f) := (cstr_eq _).2 (C116_nul D _ h)
  rw [e]
  exact ⟨C119_written D V _ h, rfl⟩

/-- The tags a viewer should see. -/
def present (tags : List Str) (f : Info) : List Str := tags.filter (fun t => decide (t ∈ f.params.map (·.1)))

theorem present_eq (tags : List Str) (f : Info) :
    tags.filter (fun t => f.params.any (fun p => p.1 == t)) = present tags f := by
  unfold present
  congr 1
  funext t
  rw [Bool.eq_iff_iff]
  simp only [List.any_eq_true, beq_iff_eq, decide_eq_true_eq, List.mem_map]

theorem strs_inj (a b : List Str) (h : a.map Json.str = b.map Json.str) : a = b := by
  induction a generalizing b with
  | nil => cases b with
    | nil => rfl
    | cons _ _ => cases h
  | cons x a ih => cases b with
    | nil => cases h
    | cons y b =>
      simp only [List.map_cons, List.cons.injEq, Json.str.injEq] at h
      rw [h.1, ih b h.2]

theorem map_cstr (l : List Str) : l.map cstr = l ↔ ∀ t ∈ l, '\x00' ∉ t := by
  induction l with
  | nil => simp
  | cons x l ih => simp [cstr_eq, ih]

/-- The full claim: the header of every frame denotes a document that says everything about it. -/
def C120_statement : Prop :=
  ∀ (D : Nat → Option Str) (V : Str → Option Nat) (tags : List Str) (f : Info), Typed f →
    ∃ doc, JText V (liveMessage D tags f).1 doc ∧ Shows tags f doc

/-- C120: the header says everything about a frame exactly if its number and the size of its image have 32 bits, and
there is no NUL character in the acquisition id, the dataset name and the tags it has. -/
theorem C120_partial (D : Nat → Option Str) (V : Str → Option Nat) (tags : List Str) (f : Info) :
    (∃ doc, JText V (liveMessage D tags f).1 doc ∧ Shows tags f doc) ↔
      (0 ≤ f.number ∧ f.number < 4294967296) ∧ f.image.length < 4294967296 ∧ '\x00' ∉ f.acqId ∧ '\x00' ∉ f.dataset ∧
        ∀ t ∈ tags, t ∈ f.params.map (·.1) → '\x00' ∉ t := by
  have hpres : (∀ t ∈ tags, t ∈ f.params.map (·.1) → '\x00' ∉ t) ↔ (present tags f).map cstr = present tags f := by
    rw [map_cstr]
    simp only [present, List.mem_filter, decide_eq_true_eq, and_imp]
  constructor
  · rintro ⟨doc, ht, hs⟩
    have e := C119_unique V _ _ _ ht (C120_reads D V tags f).1
    subst e
    have h1 : f.number % 4294967296 = f.number := by
      have : some (Json.num (f.number % 4294967296)) = some (.num f.number) := hs.number
      simpa using this
    have h2 : ((f.image.length % 4294967296 : Nat) : Int) = f.image.length := by
      have : some (Json.num ((f.image.length % 4294967296 : Nat) : Int)) = some (.num f.image.length) := hs.size
      simpa using this
    have h3 : cstr f.acqId = f.acqId := by
      have : some (Json.str (cstr f.acqId)) = some (.str f.acqId) := hs.acqId
      simpa using this
    have h4 : cstr f.dataset = f.dataset := by
      have : some (Json.str (cstr f.dataset)) = some (.str f.dataset) := hs.dataset
      simpa using this
    refine ⟨by omega, by omega, (cstr_eq _).1 h3, (cstr_eq _).1 h4, ?_⟩
    rw [hpres]
    have h5 := hs.tags
    rw [field_tags] at h5
    by_cases hn : tags = []
    · subst hn
      rfl
    · rw [if_neg hn, if_neg hn, present_eq] at h5
      simp only [Option.some.injEq, Json.arr.injEq] at h5
      have : ((present tags f).map cstr).map Json.str = (present tags f).map Json.str := by
        rw [List.map_map]
        exact h5
      exact strs_inj _ _ this
  · rintro ⟨h1, h2, h3, h4, h5⟩
    rw [hpres] at h5
    refine ⟨_, (C120_reads D V tags f).1, ?_⟩
    refine ⟨?_, ?_, rfl, ?_, ?_, rfl, ⟨f.dims.map Receiver.dec, ?_, ?_⟩, ?_⟩
    · show some (Json.num (f.number % 4294967296)) = _
      rw [Int.emod_eq_of_lt h1.1 h1.2]
    · show some (Json.str (cstr f.acqId)) = _
      rw [(cstr_eq _).2 h3]
    · show some (Json.num ((f.image.length % 4294967296 : Nat) : Int)) = _
      rw [Nat.mod_eq_of_lt h2]
    · show some (Json.str (cstr f.dataset)) = _
      rw [(cstr_eq _).2 h4]
    · rw [field_shape, List.map_map]
      rfl
    · rw [List.map_map]
      congr 1
      funext d
      exact numeral_dec d
    · rw [field_tags]
      by_cases hn : tags = []
      · rw [if_pos hn, if_pos hn]
      · rw [if_neg hn, if_neg hn, present_eq]
        have : ((present tags f).map cstr).map Json.str = (present tags f).map Json.str := by rw [h5]
        rw [List.map_map] at this
        exact congrArg (fun l => some (Json.arr l)) this

/-- A frame whose number needs 33 bits. -/
def exLate : Info :=
  { number := 4294967296, acqId := "run".toList, dataset := "data".toList, dtype := .raw16, compression := .none,
    dims := [2, 3], dataLen := 12, image := [1, 2, 3, 4, 5, 6, 7, 8, 9, 10, 11, 12], offset := 0,
    params := [("hot".toList, .ulong 3)] }

theorem exLate_typed : Typed exLate :=
  ⟨by decide, by decide, by decide, by decide, by
    intro p hp n hn
    simp only [exLate, List.mem_singleton] at hp
    subst hp
    cases hn
    decide, by decide⟩

/-- False of the code: the frame number is cut to 32 bits, so frame 4294967296 is shown as frame 0. -/
theorem C120_violated : ¬ C120_statement := by
  intro h
  have := ((C120_partial (fun _ => none) (fun _ => none) [] exLate).1 (h _ _ [] exLate exLate_typed)).1.2
  revert this
  decide

/-- Non-vacuity: a header. -/
example : (liveMessage (fun _ => none) ["cold".toList, "hot".toList] { exLate with number := 7 }).1 =
    "{\"frame_num\":7,\"acquisition_id\":\"run\",\"dtype\":\"uint16\",\"dsize\":12,\"dataset\":\"data\",\"compression\":\"none\",\"tags\":[\"hot\"],\"shape\":[\"2\",\"3\"]}".toList := by
  decide +kernel

/-! ## Kafka -/

namespace Spec

/-- The value of a parameter in JSON. -/
def value : Param → Json
  | .ulong n => .num n
  | .float d => .dbl d
  | .int i => .num i
  | .text s => .str s

/-- A document says what a consumer should know. -/
structure Tells (withParams : Bool) (f : Info) (doc : Json) : Prop where
  size : field doc "data_size".toList = some (.num f.dataLen)
  dtype : ∃ k : Nat, field doc "data_type".toList = some (.num k) ∧
    ["unknown", "uint8", "uint16", "uint32", "uint64", "float"][k]? = some (typeName f.dtype)
  number : field doc "frame_number".toList = some (.num f.number)
  acqId : field doc "acquisition_id".toList = some (.str f.acqId)
  compression : ∃ k : Nat, field doc "compression".toList = some (.num k) ∧
    ["unknown", "none", "LZ4", "BSLZ4", "blosc"][k]? = some (compressionName f.compression)
  offset : field doc "frame_offset".toList = some (.num f.offset)
  dims : field doc "dims".toList = some (.arr (f.dims.map (fun (d : Nat) => .num (d : Int))))
  params : field doc "parameters".toList =
    if withParams then some (.obj (f.params.map (fun p => (p.1, value p.2)))) else none

/-- Numbers that are written are written as texts that denote them. -/
def Numbers (D : Nat → Option Str) (V : Str → Option Nat) : Prop := ∀ d t, D d = some t → JVal V t (.dbl d)

end Spec

/-- What the plugin makes of a parameter. -/
def shown : Param → Json
  | .ulong n => .num n
  | .float d => .dbl d
  | .int _ => .null
  | .text _ => .null

def paramDoc (f : Info) : List (Str × Json) := f.params.map (fun p => (cstr p.1, shown p.2))

def headDoc (f : Info) : List (Str × Json) :=
  [("data_size".toList, .num f.dataLen), ("data_type".toList, .num (typeCode f.dtype)),
   ("frame_number".toList, .num (u64 f.number)), ("acquisition_id".toList, .str (cstr f.acqId)),
   ("compression".toList, .num (compressionCode f.compression)), ("frame_offset".toList, .num (u64 f.offset)),
   ("dims".toList, .arr (f.dims.map (fun (d : Nat) => .num (d : Int))))]

/-- The document the calls of the writer amount to. -/
def kafkaDoc (withParams : Bool) (f : Info) : Json :=
  .obj (headDoc f ++ if withParams then [("parameters".toList, .obj (paramDoc f))] else [])

theorem eventsL_nums (l : List Nat) : eventsL (l.map (fun (d : Nat) => .num (d : Int))) = l.map (fun (d : Nat) => Ev.num (d : Int)) := by
  induction l with
  | nil => rfl
  | cons d l ih => simp [eventsL, events, ih]

theorem eventsM_params (l : List (Str × Param)) : eventsM (l.map (fun p => (cstr p.1, shown p.2))) =
    l.flatMap (fun p => [.str (cstr p.1), paramEv p.2]) := by
  induction l with
  | nil => rfl
  | cons p l ih =>
    obtain ⟨k, v⟩ := p
    rw [List.map_cons, List.flatMap_cons, eventsM, ih]
    cases v <;> rfl

theorem kafka_events (withParams : Bool) (f : Info) : kafkaEvents withParams f = events (kafkaDoc withParams f) := by
  cases withParams <;>
    simp [kafkaEvents, kafkaDoc, headDoc, paramDoc, paramEvents, events, eventsM, eventsL_nums, eventsM_params]

/-- The header is the text of that document, and no assertion of the writer fails. -/
theorem C121_text (D : Nat → Option Str) (withParams : Bool) (f : Info) :
    kafkaHeader D withParams f = text D (kafkaDoc withParams f) ∧ (run D {} (kafkaEvents withParams f)).bad = false := by
  unfold kafkaHeader
  rw [kafka_events]
  exact run_doc D _

theorem depth_nums (l : List Nat) : depthL (l.map (fun (d : Nat) => .num (d : Int))) ≤ 1 := by
  induction l with
  | nil => simp [depthL]
  | cons x l ih => simp only [List.map_cons, depthL, depth]; omega

theorem depth_params (l : List (Str × Param)) : depthM (l.map (fun p => (cstr p.1, shown p.2))) ≤ 1 := by
  induction l with
  | nil => simp [depthM]
  | cons p l ih =>
    obtain ⟨k, v⟩ := p
    have hv : depth (shown v) = 1 := by cases v <;> rfl
    simp only [List.map_cons, depthM]
    omega

theorem okay_nums (D : Nat → Option Str) (V : Str → Option Nat) (l : List Nat) (h : ∀ d ∈ l, d < 18446744073709551616) :
    OkayL D V (l.map (fun (d : Nat) => .num (d : Int))) := by
  have e63 : (2 : Int) ^ 63 = 9223372036854775808 := by decide
  have e64 : (2 : Int) ^ 64 = 18446744073709551616 := by decide
  induction l with
  | nil => trivial
  | cons d l ih =>
    have := h d (by simp)
    refine ⟨?_, ih (fun x hx => h x (by simp [hx]))⟩
    simp only [Okay]
    omega

/-- Not a number the writer refuses. -/
def finite (D : Nat → Option Str) : Param → Prop
  | .float d => (D d).isSome = true
  | _ => True

theorem okay_params (D : Nat → Option Str) (V : Str → Option Nat) (hN : Numbers D V) (l : List (Str × Param))
    (h : ∀ p ∈ l, finite D p.2) (hu : ∀ p ∈ l, ∀ n, p.2 = .ulong n → n < 18446744073709551616) :
    OkayM D V (l.map (fun p => (cstr p.1, shown p.2))) := by
  have e63 : (2 : Int) ^ 63 = 9223372036854775808 := by decide
  have e64 : (2 : Int) ^ 64 = 18446744073709551616 := by decide
  induction l with
  | nil => trivial
  | cons p l ih =>
    obtain ⟨k, v⟩ := p
    refine ⟨?_, ih (fun x hx => h x (by simp [hx])) (fun x hx => hu x (by simp [hx]))⟩
    have h1 := h (k, v) (by simp)
    have h2 := hu (k, v) (by simp)
    cases v with
    | ulong n =>
      have := h2 n rfl
      simp only [shown, Okay]
      omega
    | float d =>
      obtain ⟨t, e⟩ := Option.isSome_iff_exists.1 (show (D d).isSome = true from h1)
      exact ⟨t, e, hN d t e⟩
    | int i => trivial
    | text s => trivial

theorem okay_head (D : Nat → Option Str) (V : Str → Option Nat) (f : Info) (ht : Typed f) : OkayM D V (headDoc f) := by
  have e63 : (2 : Int) ^ 63 = 9223372036854775808 := by decide
  have e64 : (2 : Int) ^ 64 = 18446744073709551616 := by decide
  have h1 := ht.number
  have h2 := ht.offset
  have h3 := ht.dataLen
  refine ⟨?_, ?_, ?_, trivial, ?_, ?_, okay_nums D V _ ht.dims, trivial⟩
  · simp only [Okay]; omega
  · simp only [Okay]
    cases f.dtype <;> simp only [typeCode] <;> omega
  · simp only [Okay, u64]; omega
  · simp only [Okay]
    cases f.compression <;> simp only [compressionCode] <;> omega
  · simp only [Okay, u64]; omega

theorem okayM_append (D : Nat → Option Str) (V : Str → Option Nat) (a b : List (Str × Json)) (ha : OkayM D V a)
    (hb : OkayM D V b) : OkayM D V (a ++ b) := by
  induction a with
  | nil => exact hb
  | cons x a ih => exact ⟨ha.1, ih ha.2⟩

/-- Without refused numbers the header is a text of the grammar and denotes that document. -/
theorem C121_reads (D : Nat → Option Str) (V : Str → Option Nat) (hN : Numbers D V) (withParams : Bool) (f : Info)
    (ht : Typed f) (hf : withParams = true → ∀ p ∈ f.params, finite D p.2) :
    JText V (kafkaHeader D withParams f) (kafkaDoc withParams f) := by
  rw [(C121_text D withParams f).1]
  refine ⟨[], _, [], [], by simp, Ws.nil, jval_text D V _ ?_, Ws.nil, Or.inl rfl⟩
  refine okayM_append D V _ _ (okay_head D V f ht) ?_
  cases withParams with
  | false => trivial
  | true => exact ⟨okay_params D V hN f.params (hf rfl) ht.ulong, trivial⟩

/-! ### A number that is refused -/

theorem readKey_text (k u : Str) : readKey (quoted k ++ ':' :: u) = .ok k (skipWs u) := by
  have e : quoted k ++ ':' :: u = '"' :: (k.flatMap escChar ++ '"' :: (':' :: u)) := by simp [quoted]
  rw [e]
  simp only [readKey]
  rw [readStr_complete _ k (chars_text k)]
  rfl

/-- If the value of a member cannot be read, neither can the object. -/
theorem members_fail (D : Nat → Option Str) (V : Str → Option Nat) (d : Nat) (pv : Str → R Json) (hc : Complete V d pv)
    (l rest : List (Str × Json)) (k : Str) (j : Json) (tail : Str) (hl : OkayM D V l) (hd : depthM l ≤ d)
    (hbad : ∀ v r, pv (skipWs (text D j ++ (textM D false rest ++ tail))) ≠ .ok v r) (n : Nat) (x : List (Str × Json)) (r : Str) :
    members pv n (textM D true (l ++ (k, j) :: rest) ++ tail) ≠ .ok x r := by
  induction l generalizing n x with
  | nil =>
    cases n with
    | zero => simp [members]
    | succ n =>
      have e : textM D true ([] ++ (k, j) :: rest) ++ tail = quoted k ++ ':' :: (text D j ++ (textM D false rest ++ tail)) := by
        simp [textM]
      rw [e, members, readKey_text]
      intro h
      obtain ⟨v, s, e1, _⟩ := bind_ok (show (pv (skipWs _)).bind _ = _ from h)
      exact hbad v s e1
  | cons y l ih =>
    obtain ⟨k0, j0⟩ := y
    simp only [depthM] at hd
    cases n with
    | zero => simp [members]
    | succ n =>
      have hne : l ++ (k, j) :: rest ≠ [] := by simp
      have e : textM D true ((k0, j0) :: l ++ (k, j) :: rest) ++ tail =
          quoted k0 ++ ':' :: (text D j0 ++ (',' :: (textM D true (l ++ (k, j) :: rest) ++ tail))) := by
        simp [textM, textM_false D _ hne]
      have hv := jval_text D V j0 hl.1
      have hsk := skipWs_val V _ _ hv [] (',' :: (textM D true (l ++ (k, j) :: rest) ++ tail)) Ws.nil
      rw [List.nil_append] at hsk
      rw [e, members, readKey_text, hsk]
      intro h
      replace h : (pv _).bind _ = _ := h
      rw [hc _ _ hv (by omega) _ (stops_of ',' _ (Or.inl rfl))] at h
      simp only [R.bind, skipWs_cons ',' _ (by decide)] at h
      have hq : skipWs (textM D true (l ++ (k, j) :: rest) ++ tail) = textM D true (l ++ (k, j) :: rest) ++ tail := by
        cases l with
        | nil => simp only [List.nil_append, textM, quoted, if_true, List.cons_append]; exact skipWs_cons _ _ (by decide)
        | cons z l => simp only [List.cons_append, textM, quoted, if_true, List.nil_append]; exact skipWs_cons _ _ (by decide)
      rw [hq] at h
      obtain ⟨l', r', e2, _⟩ := bind_ok (show (members pv n _).bind _ = _ from h)
      exact ih hl.2 (by omega) n l' (by
        obtain ⟨l'', r'', e3, e4⟩ := bind_ok (show (members pv n _).bind _ = _ from h)
        rw [e3] at e2
        cases e2
        cases e4
        exact e3)

theorem obj_fail (D : Nat → Option Str) (V : Str → Option Nat) (d : Nat) (l rest : List (Str × Json)) (k : Str) (j : Json)
    (hl : OkayM D V l) (hd : depthM l ≤ d)
    (hbad : ∀ tail v r, readVal V d (skipWs (text D j ++ (textM D false rest ++ '}' :: tail))) ≠ .ok v r) (tail : Str) (v : Json) (r : Str) :
    readVal V (d + 1) (skipWs (text D (.obj (l ++ (k, j) :: rest)) ++ tail)) ≠ .ok v r := by
  have e : text D (.obj (l ++ (k, j) :: rest)) ++ tail = '{' :: (textM D true (l ++ (k, j) :: rest) ++ '}' :: tail) := by
    simp [text]
  rw [e, skipWs_cons _ _ (by decide)]
  show readObj (readVal V d) _ ≠ _
  have hq : skipWs (textM D true (l ++ (k, j) :: rest) ++ '}' :: tail) = textM D true (l ++ (k, j) :: rest) ++ '}' :: tail ∧
      (textM D true (l ++ (k, j) :: rest) ++ '}' :: tail).head? = some '"' := by
    cases l with
    | nil => simp only [List.nil_append, textM, quoted, if_true, List.cons_append]; exact ⟨skipWs_cons _ _ (by decide), rfl⟩
    | cons z l => simp only [List.cons_append, textM, quoted, if_true, List.nil_append]; exact ⟨skipWs_cons _ _ (by decide), rfl⟩
  rw [readObj_else _ _ (by rw [hq.1, hq.2]; decide), hq.1]
  intro h
  obtain ⟨x, s, e1, _⟩ := bind_ok h
  exact members_fail D V d _ (readVal_complete V d) l rest k j ('}' :: tail) hl hd (hbad tail) _ _ _ e1

theorem readVal_sep (V : Str → Option Nat) (d : Nat) (c : Char) (hc : c = ',' ∨ c = '}') (s : Str) (v : Json) (r : Str) :
    readVal V d (c :: s) ≠ .ok v r := by
  cases d with
  | zero => simp [readVal]
  | succ d => rcases hc with rfl | rfl <;> simp [readVal, readNum, intPart, isDigit]

theorem first_bad {α : Type} (P : α → Prop) [DecidablePred P] (l : List α) (h : ¬ ∀ x ∈ l, P x) :
    ∃ a x b, l = a ++ x :: b ∧ (∀ y ∈ a, P y) ∧ ¬ P x := by
  induction l with
  | nil => exact absurd (fun _ hx => by cases hx) h
  | cons y l ih =>
    by_cases hy : P y
    · obtain ⟨a, x, b, e, h1, h2⟩ := ih (fun hl => h (fun x hx => by
        rcases List.mem_cons.1 hx with rfl | hx
        · exact hy
        · exact hl x hx))
      refine ⟨y :: a, x, b, by rw [e]; rfl, ?_, h2⟩
      intro z hz
      rcases List.mem_cons.1 hz with rfl | hz
      · exact hy
      · exact h1 z hz
    · exact ⟨[], y, l, rfl, (fun _ hx => by cases hx), hy⟩

instance (D : Nat → Option Str) (p : Param) : Decidable (finite D p) := by
  cases p <;> simp only [finite] <;> infer_instance

/-- With a parameter that is NaN or infinite the header is not a JSON text at all. -/
theorem C121_nan (D : Nat → Option Str) (V : Str → Option Nat) (hN : Numbers D V) (f : Info) (ht : Typed f)
    (hf : ¬ ∀ p ∈ f.params, finite D p.2) : ¬ ∃ doc, JText V (kafkaHeader D true f) doc := by
  rintro ⟨doc, h⟩
  have hp := (C119 V (max (depth doc) 4) _ doc).2 ⟨by omega, h⟩
  generalize hR : max (depth doc) 4 = R at hp
  obtain ⟨d, rfl⟩ : ∃ d, R = d + 2 := ⟨R - 2, by omega⟩
  obtain ⟨a, ⟨k, p⟩, b, e, ha, hb⟩ := first_bad (fun p => finite D p.2) f.params hf
  have hpd : text D (shown p) = [] := by
    cases p with
    | float x =>
      have : D x = none := by simpa [finite] using hb
      simp [shown, text, this]
    | ulong n => exact absurd trivial hb
    | int n => exact absurd trivial hb
    | text n => exact absurd trivial hb
  have e1 : paramDoc f = a.map (fun p => (cstr p.1, shown p.2)) ++ (cstr k, shown p) :: b.map (fun p => (cstr p.1, shown p.2)) := by
    simp [paramDoc, e]
  have hinner : ∀ tail v r, readVal V (d + 1) (skipWs (text D (.obj (paramDoc f)) ++ (textM D false [] ++ '}' :: tail))) ≠ .ok v r := by
    intro tail v r
    rw [e1]
    refine obj_fail D V d _ _ _ _ (okay_params D V hN a ha (fun q hq => ht.ulong q (by rw [e]; simp [hq])))
      (Nat.le_trans (depth_params a) (by omega)) ?_ _ v r
    intro tail v r
    rw [hpd, List.nil_append]
    cases b with
    | nil =>
      simp only [List.map_nil, textM, List.nil_append]
      rw [skipWs_cons _ _ (by decide)]
      exact readVal_sep V d _ (Or.inr rfl) _ v r
    | cons q b =>
      rw [textM_false D _ (by simp), List.cons_append, skipWs_cons _ _ (by decide)]
      exact readVal_sep V d _ (Or.inl rfl) _ v r
  have hdh : depthM (headDoc f) ≤ d + 1 := by
    have := depth_nums f.dims
    simp only [headDoc, depthM, depth]
    omega
  have houter := obj_fail D V (d + 1) (headDoc f) [] "parameters".toList (.obj (paramDoc f)) (okay_head D V f ht) hdh hinner []
  rw [(C121_text D true f).1] at hp
  unfold parse at hp
  split at hp
  · cases hp
  · obtain ⟨v, r, e2, _⟩ := bind_ok hp
    refine houter v r ?_
    rw [List.append_nil]
    exact e2

/-! ### The claim -/

/-- The full claim: the header of every frame denotes a document that says everything about it. -/
def C121_statement : Prop :=
  ∀ (D : Nat → Option Str) (V : Str → Option Nat) (withParams : Bool) (f : Info), Numbers D V → Typed f →
    ∃ doc, JText V (kafkaHeader D withParams f) doc ∧ Tells withParams f doc

/-- Parameters the plugin can show. -/
def showable (D : Nat → Option Str) : Param → Prop
  | .ulong _ => True
  | .float d => (D d).isSome = true
  | .int _ => False
  | .text _ => False

theorem params_same (l : List (Str × Param)) :
    l.map (fun p => (cstr p.1, shown p.2)) = l.map (fun p => (p.1, value p.2)) ↔
      ∀ p ∈ l, '\x00' ∉ p.1 ∧ shown p.2 = value p.2 := by
  induction l with
  | nil => simp
  | cons x l ih =>
    simp only [List.map_cons, List.cons.injEq, Prod.mk.injEq, ih, cstr_eq, List.mem_cons, forall_eq_or_imp]

theorem field_params (withParams : Bool) (f : Info) :
    field (kafkaDoc withParams f) "parameters".toList = if withParams then some (.obj (paramDoc f)) else none := by
  cases withParams <;> rfl

/-- C121: the header says everything about a frame exactly if its number and offset are not negative, there is no NUL
character in the acquisition id and, if parameters are included, every one has a name without NUL characters and is an
unsigned long or a float that is neither NaN nor infinite. -/
theorem C121_partial (D : Nat → Option Str) (V : Str → Option Nat) (withParams : Bool) (f : Info) (hN : Numbers D V)
    (ht : Typed f) : (∃ doc, JText V (kafkaHeader D withParams f) doc ∧ Tells withParams f doc) ↔
      0 ≤ f.number ∧ 0 ≤ f.offset ∧ '\x00' ∉ f.acqId ∧
        (withParams = true → ∀ p ∈ f.params, '\x00' ∉ p.1 ∧ showable D p.2) := by
  have hn := ht.number
  have ho := ht.offset
  constructor
  · rintro ⟨doc, hj, hs⟩
    have hfin : withParams = true → ∀ p ∈ f.params, finite D p.2 := by
      intro hw
      subst hw
      exact Decidable.byContradiction fun hc => C121_nan D V hN f ht hc ⟨doc, hj⟩
    have e := C119_unique V _ _ _ hj (C121_reads D V hN withParams f ht hfin)
    subst e
    have h1 : u64 f.number = f.number := by
      have : some (Json.num (u64 f.number)) = some (.num f.number) := hs.number
      simpa using this
    have h2 : u64 f.offset = f.offset := by
      have : some (Json.num (u64 f.offset)) = some (.num f.offset) := hs.offset
      simpa using this
    have h3 : cstr f.acqId = f.acqId := by
      have : some (Json.str (cstr f.acqId)) = some (.str f.acqId) := hs.acqId
      simpa using this
    refine ⟨by unfold u64 at h1; omega, by unfold u64 at h2; omega, (cstr_eq _).1 h3, ?_⟩
    intro hw p hp
    have h4 := hs.params
    rw [field_params, if_pos hw, if_pos hw] at h4
    simp only [Option.some.injEq, Json.obj.injEq] at h4
    obtain ⟨h5, h6⟩ := (params_same f.params).1 h4 p hp
    refine ⟨h5, ?_⟩
    have h7 := hfin hw p hp
    revert h6 h7
    cases p.2 with
    | ulong n => intro _ _; trivial
    | float d => intro _ h; exact h
    | int i => intro h; cases h
    | text s => intro h; cases h
  · rintro ⟨h1, h2, h3, h4⟩
    have hfin : withParams = true → ∀ p ∈ f.params, finite D p.2 := by
      intro hw p hp
      have := (h4 hw p hp).2
      revert this
      cases p.2 with
      | ulong n => intro _; trivial
      | float d => intro h; exact h
      | int i => intro h; exact h.elim
      | text s => intro h; exact h.elim
    refine ⟨_, C121_reads D V hN withParams f ht hfin, rfl,
      ⟨_, rfl, by cases f.dtype <;> rfl⟩, ?_, ?_, ⟨_, rfl, by cases f.compression <;> rfl⟩, ?_, rfl, ?_⟩
    · show some (Json.num (u64 f.number)) = _
      rw [u64, Int.emod_eq_of_lt h1 (by omega)]
    · show some (Json.str (cstr f.acqId)) = _
      rw [(cstr_eq _).2 h3]
    · show some (Json.num (u64 f.offset)) = _
      rw [u64, Int.emod_eq_of_lt h2 (by omega)]
    · rw [field_params]
      cases withParams with
      | false => rfl
      | true =>
        rw [if_pos rfl, if_pos rfl]
        refine congrArg (fun l => some (Json.obj l)) ((params_same f.params).2 ?_)
        intro p hp
        obtain ⟨h5, h6⟩ := h4 rfl p hp
        refine ⟨h5, ?_⟩
        revert h6
        cases p.2 with
        | ulong n => intro _; rfl
        | float d => intro _; rfl
        | int i => intro h; exact h.elim
        | text s => intro h; exact h.elim

theorem char_bytes (a b : Str) (h : a.map Char.toNat = b.map Char.toNat) : a = b := by
  have := congrArg (List.map Char.ofNat) h
  simpa [List.map_map, Function.comp_def] using this

/-- C121, with the message around it: a consumer who takes a message apart gets the header and the data, if the header
has less than 65535 bytes. -/
theorem C121_message (D : Nat → Option Str) (V : Str → Option Nat) (withParams : Bool) (f : Info) (k : Kafka.Frame)
    (hN : Numbers D V) (ht : Typed f) (h1 : 0 ≤ f.number) (h2 : 0 ≤ f.offset) (h3 : '\x00' ∉ f.acqId)
    (h4 : withParams = true → ∀ p ∈ f.params, '\x00' ∉ p.1 ∧ showable D p.2)
    (hlen : (kafkaHeader D withParams f).length < 65535) :
    ∃ m s doc, kafkaMessage D withParams f k = .ok m ∧ Kafka.Spec.consume m = some (s.map Char.toNat, k.data) ∧
      JText V s doc ∧ Tells withParams f doc := by
  obtain ⟨doc, hj, hs⟩ := (C121_partial D V withParams f hN ht).2 ⟨h1, h2, h3, h4⟩
  obtain ⟨m, hm, hc⟩ := Kafka.C25_partial ((kafkaHeader D withParams f).map Char.toNat) k (by simpa using hlen)
  exact ⟨m, _, doc, hm, hc, hj, hs⟩

/-- False of the code: a frame that never got a number has number -1, which is sent as 18446744073709551615. -/
theorem C121_violated : ¬ C121_statement := by
  intro h
  have ht : Typed { exLate with number := -1 } := { exLate_typed with number := by decide }
  have := ((C121_partial (fun _ => none) (fun _ => none) true _ (by intro d t e; cases e) ht).1
    (h _ _ _ _ (by intro d t e; cases e) ht)).1
  revert this
  decide

/-- A parameter that is not a number. -/
theorem C121_violated_nan : ∃ f, Typed f ∧ 0 ≤ f.number ∧
    ¬ ∃ doc, JText (fun _ => none) (kafkaHeader (fun _ => none) true f) doc := by
  have ht : Typed { exLate with params := [("hot".toList, .float 3)] } :=
    { exLate_typed with
      ulong := by
        intro p hp n hn
        simp only [List.mem_singleton] at hp
        subst hp
        cases hn
      names := by decide }
  refine ⟨_, ht, by decide, C121_nan _ _ (by intro d t e; cases e) _ ht ?_⟩
  intro h
  have := h ("hot".toList, .float 3) (by simp)
  simp [finite] at this

/-- Non-vacuity: a header with parameters of three types. -/
example : kafkaHeader exD true { exLate with number := 5, params := [("a".toList, .ulong 3), ("b".toList, .float 7), ("c".toList, .int 4)] } =
    "{\"data_size\":12,\"data_type\":2,\"frame_number\":5,\"acquisition_id\":\"run\",\"compression\":1,\"frame_offset\":0,\"dims\":[2,3],\"parameters\":{\"a\":3,\"b\":0.25,\"c\":null}}".toList := by
  decide +kernel

end Verif.Headers
