import Verif.Props.JsonText
import Verif.Props.IpcMessage

/-!
C118: a message sent as text arrives as the same message.
-/
namespace Verif.JsonText
open Verif.Ipc

theorem fits_append (a b : List (Str × Json)) (ha : FitsM a) (hb : FitsM b) : FitsM (a ++ b) := by
  induction a with
  | nil => exact hb
  | cons x a ih => exact ⟨ha.1, ih ha.2⟩

theorem fits_setM (l : List (Str × Json)) (k : Str) (v : Json) (h : FitsM l) (hv : Fits v) : FitsM (setM l k v) := by
  induction l with
  | nil => trivial
  | cons x l ih =>
    obtain ⟨n, y⟩ := x
    unfold setM
    split
    · exact ⟨hv, h.2⟩
    · exact ⟨h.1, ih h.2⟩

theorem fits_setAttr (l : List (Str × Json)) (k : Str) (v : Json) (h : FitsM l) (hv : Fits v) : FitsM (setAttr l k v) := by
  unfold setAttr
  split
  · exact fits_setM l k v h hv
  · exact fits_append l _ h ⟨hv, trivial⟩

theorem depth_append (a b : List (Str × Json)) (n : Nat) (ha : depthM a ≤ n) (hb : depthM b ≤ n) : depthM (a ++ b) ≤ n := by
  induction a with
  | nil => exact hb
  | cons x a ih =>
    obtain ⟨k, y⟩ := x
    simp only [depthM, List.cons_append] at ha ⊢
    have := ih (by omega)
    omega

theorem depth_setM (l : List (Str × Json)) (k : Str) (v : Json) (n : Nat) (h : depthM l ≤ n) (hv : depth v ≤ n) :
    depthM (setM l k v) ≤ n := by
  induction l with
  | nil => simp [setM, depthM]
  | cons x l ih =>
    obtain ⟨m, y⟩ := x
    simp only [depthM] at h
    unfold setM
    split
    · simp only [depthM]; omega
    · have := ih (by omega)
      simp only [depthM]; omega

theorem depth_setAttr (l : List (Str × Json)) (k : Str) (v : Json) (n : Nat) (h : depthM l ≤ n) (hv : depth v ≤ n) :
    depthM (setAttr l k v) ≤ n := by
  unfold setAttr
  split
  · exact depth_setM l k v n h hv
  · exact depth_append l _ n h (by simp only [depthM]; omega)

/-- C118: a legal message with a params block, whose numbers are integers of 64 bits, is encoded as a text without NUL
characters; the constructor from that text, with strict validation, makes a message with the same type, value, id, time
stamp, params and other attributes. -/
theorem C118 (D : Nat → Option Str) (V : Str → Option Nat) (T : Times) (m : Msg) (id t : Nat) (ps : List (Str × Json))
    (hT : T.parse (T.text (some t)) = some t) (ht : m.type ≠ .illegal) (hv : m.val ≠ .illegal)
    (hid : m.id = some id) (hr : id < 4294967296) (htime : m.time = some t) (hp : m.params = some (.obj ps))
    (hf : FitsM m.doc) (room : Nat) (hd : depth (.obj m.doc) ≤ room) (h2 : 2 ≤ room) :
    ∃ s m', encodeText D T m = some s ∧ '\x00' ∉ s ∧ decodeText V room T true s = .msg m' ∧
      m'.type = m.type ∧ m'.val = m.val ∧ m'.id = m.id ∧ m'.time = m.time ∧ m'.params = m.params ∧
      ∀ k, k ∉ ["msg_type", "msg_val", "id", "timestamp"].map String.toList → findM m'.doc k = findM m.doc k := by
  obtain ⟨d, m', he, hdec, rest⟩ := C62 T m id t ps hT ht hv hid hr htime hp
  have ed : setAttr (setAttr (setAttr (setAttr m.doc "msg_type".toList (.str (typeName m.type)))
      "msg_val".toList (.str (valName m.val))) "id".toList (.num (id : Int))) "timestamp".toList (.str (T.text m.time)) = d := by
    simpa only [encode, hid, Option.map_some, Option.some.injEq] using he
  have hfid : Fits (.num (id : Int)) := by
    have e63 : (2 : Int) ^ 63 = 9223372036854775808 := by decide
    have e64 : (2 : Int) ^ 64 = 18446744073709551616 := by decide
    simp only [Fits]
    omega
  have hfd : FitsM d := by
    rw [← ed]
    exact fits_setAttr _ _ _ (fits_setAttr _ _ _ (fits_setAttr _ _ _ (fits_setAttr _ _ _ hf trivial) trivial) hfid) trivial
  have hdm : depthM m.doc ≤ room - 1 := by
    have : depthM m.doc + 1 ≤ room := by simpa only [depth] using hd
    omega
  have hstr : ∀ s : Str, depth (.str s) ≤ room - 1 := fun s => by simp only [depth]; omega
  have hnum : ∀ i : Int, depth (.num i) ≤ room - 1 := fun s => by simp only [depth]; omega
  have hdd : depth (.obj d) ≤ room := by
    have : depthM d ≤ room - 1 := by
      rw [← ed]
      exact depth_setAttr _ _ _ _ (depth_setAttr _ _ _ _ (depth_setAttr _ _ _ _ (depth_setAttr _ _ _ _ hdm (hstr _))
        (hstr _)) (hnum _)) (hstr _)
    simp only [depth]
    omega
  refine ⟨write D (.obj d), m', by simp only [encodeText, he, Option.map_some], C116_nul D (.obj d) hfd, ?_, rest⟩
  simp only [decodeText, C116 D V (.obj d) hfd room hdd, hdec]

/-- A text with more opening brackets than there is stack crashes the program that receives it, although the constructor
catches all exceptions. -/
theorem C118_crash (V : Str → Option Nat) (T : Times) (strict : Bool) (room : Nat) :
    decodeText V room T strict (List.replicate (room + 1) '[') = .crash := by
  simp only [decodeText, C117_nest]

/-- Whatever is received with fewer opening brackets than there is room for, the constructor makes a message or throws
an `IpcMessageException`. -/
theorem C118_total (V : Str → Option Nat) (T : Times) (strict : Bool) (room : Nat) (s : Str) (h : brackets s < room) :
    decodeText V room T strict s ≠ .crash := by
  have h1 := C117_partial V room s h
  have h2 := C117_ends V room s
  unfold decodeText
  split
  · split <;> simp
  · simp
  · next e => exact absurd e h1
  · next e => exact absurd e h2

/-- A time stamp 7 with a text. -/
def exTimes : Times := ⟨fun _ => "2026".toList, fun _ => some 7⟩

def exMsg : Msg :=
  { type := .cmd, val := .configure, id := some 5, time := some 7,
    doc := [("params".toList, .obj [("a/\"".toList, .arr [.num (-3), .str ['\x00']])])] }

/-- Non-vacuity: the text of a command, and what is read from it. -/
example : (encodeText (fun _ => none) exTimes exMsg).map String.ofList =
    some "{\"params\":{\"a/\\\"\":[-3,\"\\u0000\"]},\"msg_type\":\"cmd\",\"msg_val\":\"configure\",\"id\":5,\"timestamp\":\"2026\"}" := by
  decide +kernel

example : (match (encodeText (fun _ => none) exTimes exMsg).map (decodeText (fun _ => none) 9 exTimes true) with
    | some (.msg m) => decide (m.type = .cmd ∧ m.val = .configure ∧ m.id = some 5 ∧ m.time = some 7 ∧
        (getParam m.params "a".toList).isSome = false)
    | _ => false) = true := by decide +kernel

end Verif.JsonText
