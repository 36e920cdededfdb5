import Verif.Props.IpcMessage
/-
C39 for whole messages: setting a parameter makes the params block if there is none, and leaves the rest of the message alone.
-/
namespace Verif.Ipc

/-- The members of the params block, none if there is no block. -/
def Block (doc l : List (Str × Json)) : Prop := findM doc "params".toList = some (.obj l) ∨ (findM doc "params".toList = none ∧ l = [])

/-- A result that reads back is no empty object. -/
theorem not_empty (p : List Str) (v : Json) (hp : Path p) (j : Json) (h : getParam (some j) (join p) = some v) : j ≠ .obj [] := by
  rintro rfl
  simp only [getParam, Option.bind_some, splitAll_join p hp] at h
  cases p with
  | nil => exact hp.1 rfl
  | cons k p => simp [get, findM] at h

theorem setDoc_some (doc : List (Str × Json)) (name : Str) (v p : Json) (h : findM doc "params".toList = some p) :
    setDoc doc name v = (setM doc "params".toList (setParam p name v).1, (setParam p name v).2) := by
  unfold setDoc; rw [h]

theorem setDoc_none (doc : List (Str × Json)) (name : Str) (v : Json) (h : findM doc "params".toList = none) (hn : (setParam (.obj []) name v).1 ≠ .obj []) :
    setDoc doc name v = (doc ++ [("params".toList, (setParam (.obj []) name v).1)], (setParam (.obj []) name v).2) := by
  unfold setDoc; rw [h]
  split
  · next e => exact absurd e (by simp)
  · split
    · next e => exact absurd e hn
    · rfl

/-- A parameter set in any message reads back from the message; unrelated parameters and all other attributes are as before. -/
theorem C39_doc (doc l : List (Str × Json)) (hl : Block doc l) (p : List Str) (v : Json) (hp : Path p) (h : PlainPath p) (hb : ¬ Blocked p (.obj l)) :
    (setDoc doc (join p) v).2 = .ok ∧
    getParam (findM (setDoc doc (join p) v).1 "params".toList) (join p) = some v ∧
    (∀ q, Path q → ¬ Related p q →
      getParam (findM (setDoc doc (join p) v).1 "params".toList) (join q) = getParam (some (.obj l)) (join q)) ∧
    ∀ k, k ≠ "params".toList → findM (setDoc doc (join p) v).1 k = findM doc k := by
  obtain ⟨a, b, c⟩ := C39_partial l p v hp h hb
  rcases hl with hl | ⟨hl, rfl⟩
  · rw [setDoc_some doc _ v _ hl]
    dsimp only
    rw [findM_setM_same _ _ _ (by rw [hl]; simp)]
    exact ⟨a, b, c, fun k hk => findM_setM_other _ _ _ _ hk⟩
  · rw [setDoc_none doc _ v hl (not_empty p v hp _ b)]
    dsimp only
    rw [findM_append _ _ _ _ hl, if_pos rfl]
    refine ⟨a, b, c, fun k hk => ?_⟩
    rw [findM_append _ _ _ _ hl, if_neg hk]

theorem plain_of (k : Str) (h : 2 ≤ k.length) (h' : k.getLast? ≠ some ']') : Plain k :=
  ⟨h, fun s e => h' (by rw [e]; simp)⟩

/-- Non-vacuity: a message without parameters. -/
example : Block [("id".toList, .num 7)] [] ∧ Path ["hdf".toList, "frames".toList] ∧ PlainPath ["hdf".toList, "frames".toList] ∧
    ¬ Blocked ["hdf".toList, "frames".toList] (.obj []) := by
  refine ⟨Or.inr ⟨by decide +kernel, rfl⟩, ⟨by simp, by decide +kernel⟩, ⟨?_, ?_⟩, ?_⟩
  · intro k hk; cases hk; exact plain_of _ (by decide +kernel) (by decide +kernel)
  · intro k hk; cases hk; exact plain_of _ (by decide +kernel) (by decide +kernel)
  rintro ⟨q, r, x, e, hr, hg, hx⟩
  cases q with
  | nil => cases hg; exact hx [] rfl
  | cons k q => simp [get, findM] at hg

/-- The types in which a value can be taken from a message: exactly those that hold it. -/
theorem C39_types (j : Json) : (∀ b, j.asBool = some b ↔ j = .bool b) ∧ (∀ s, j.asStr = some s ↔ j = .str s) ∧
    (∀ i, j.asInt = some i ↔ j = .num i ∧ -2 ^ 31 ≤ i ∧ i < 2 ^ 31) ∧ (∀ n : Nat, j.asUint = some n ↔ j = .num n ∧ n < 2 ^ 32) ∧
    (∀ n : Nat, j.asUint64 = some n ↔ j = .num n ∧ n < 2 ^ 64) := by
  have hnat : ∀ (z : Int) (m : Nat) (b : Nat), (if 0 ≤ z ∧ z < (b : Int) then some z.toNat else none) = some m ↔ z = m ∧ m < b := by
    intro z m b
    by_cases h : 0 ≤ z ∧ z < (b : Int)
    · rw [if_pos h, Option.some.injEq]
      omega
    · rw [if_neg h]
      simp only [reduceCtorEq, false_iff]
      omega
  have hint : ∀ z i : Int, (if -2147483648 ≤ z ∧ z < 2147483648 then some z else none) = some i ↔ z = i ∧ -2 ^ 31 ≤ i ∧ i < 2 ^ 31 := by
    intro z i
    by_cases h : -2147483648 ≤ z ∧ z < 2147483648
    · rw [if_pos h, Option.some.injEq]
      omega
    · rw [if_neg h]
      simp only [reduceCtorEq, false_iff]
      omega
  cases j with
  | num z =>
    refine ⟨by simp [Json.asBool], by simp [Json.asStr], fun i => ?_, fun n => ?_, fun n => ?_⟩
    · rw [Json.num.injEq]; exact hint z i
    · rw [Json.num.injEq]; exact hnat z n 4294967296
    · rw [Json.num.injEq]; exact hnat z n 18446744073709551616
  | _ => simp [Json.asBool, Json.asStr, Json.asInt, Json.asUint, Json.asUint64]

/-- Non-vacuity: values at the ends of the types. -/
example : (Json.num 2147483648).asInt = none ∧ (Json.num 2147483648).asUint = some 2147483648 ∧ (Json.num (-1)).asUint64 = none ∧
    (Json.num 1).asBool = none ∧ (Json.bool true).asInt = none := by decide +kernel

end Verif.Ipc
