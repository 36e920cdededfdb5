import Verif.Props.IpcMessage
import Verif.Model.Notices
/-
C182: reading a parameter with a default (`get_param(name, default)`, /repo/cpp/common/include/IpcMessage.h 171-196), against reading
it without (`get_param(name)`, 121-169). The model is in `Model/IpcMessage` (`getParamOr`, `getParam`).
-/
namespace Verif.Ipc

/-- The parameter at a path, by the members of the objects on the way; the first of several members of one name counts. -/
inductive At : List Str → Json → Json → Prop
  | here (j : Json) : At [] j j
  | inside (k : Str) (p : List Str) (before after : List (Str × Json)) (x v : Json) (hf : ∀ m ∈ before, m.1 ≠ k) (h : At p x v) :
      At (k :: p) (.obj (before ++ (k, x) :: after)) v

theorem findM_split (l : List (Str × Json)) (k : Str) (x : Json) (h : findM l k = some x) :
    ∃ b a, l = b ++ (k, x) :: a ∧ ∀ m ∈ b, m.1 ≠ k := by
  induction l with
  | nil => cases h
  | cons m l ih =>
    obtain ⟨n, y⟩ := m
    unfold findM at h
    by_cases hn : n = k
    · rw [if_pos hn] at h
      cases h
      exact ⟨[], l, by rw [hn]; rfl, by simp⟩
    · rw [if_neg hn] at h
      obtain ⟨b, a, e, hb⟩ := ih h
      refine ⟨(n, y) :: b, a, by rw [e]; rfl, ?_⟩
      intro m hm
      rcases List.mem_cons.1 hm with rfl | hm
      · exact hn
      · exact hb m hm

theorem findM_first (b a : List (Str × Json)) (k : Str) (x : Json) (h : ∀ m ∈ b, m.1 ≠ k) : findM (b ++ (k, x) :: a) k = some x := by
  induction b with
  | nil => simp [findM]
  | cons m b ih =>
    obtain ⟨n, y⟩ := m
    show (if n = k then some y else findM (b ++ (k, x) :: a) k) = some x
    rw [if_neg (h (n, y) (by simp)), ih (fun m hm => h m (by simp [hm]))]

theorem get_at (p : List Str) : ∀ (j v : Json), get p j = some v ↔ At p j v := by
  induction p with
  | nil =>
    intro j v
    constructor
    · intro h; cases h; exact .here j
    · intro h; cases h; rfl
  | cons k p ih =>
    intro j v
    constructor
    · intro h
      cases j with
      | obj l =>
        simp only [get] at h
        cases hf : findM l k with
        | none => rw [hf] at h; cases h
        | some x =>
          rw [hf] at h
          obtain ⟨b, a, e, hb⟩ := findM_split l k x hf
          subst e
          exact .inside k p b a x v hb ((ih x v).1 h)
      | _ => cases h
    · intro h
      cases h with
      | inside _ _ b a x _ hf h =>
        simp only [get, findM_first b a k x hf, Option.bind_some]
        exact (ih x v).2 h

/-- The full claim: the parameter if it is there, the default (`some none`) if it is not; the same path as for reading without default. -/
def C182_statement : Prop :=
  ∀ (params : Json) (p : List Str), Path p →
    (∀ v, At p params v → getParamOr (some params) (join p) = some (some v)) ∧
    ((∀ v, ¬ At p params v) → getParamOr (some params) (join p) = some none)

/-- A parameter below another one is never found: the caller gets the default, although `has_param` says it is there. -/
theorem C182_violated : ¬ C182_statement := by
  intro h
  have := (h (.obj [("hdf".toList, .obj [("frames".toList, .num 3)])]) ["hdf".toList, "frames".toList] ⟨by simp, by decide⟩).1 (.num 3)
    ((get_at _ _ _).1 rfl)
  cases this

/-- So for every nested parameter that can be set, whatever it is set to, if no member has the whole path as its name. -/
theorem C182_nested (l : List (Str × Json)) (p : List Str) (v : Json) (h2 : 2 ≤ p.length) (hp : Path p) (h : PlainPath p)
    (hb : ¬ Blocked p (.obj l)) (hn : ∀ m ∈ l, m.1 ≠ join p) :
    getParam (some (setParam (.obj l) (join p) v).1) (join p) = some v ∧
    getParamOr (some (setParam (.obj l) (join p) v).1) (join p) = some none := by
  refine ⟨(C39_partial l p v hp h hb).2.1, ?_⟩
  have hs : '/' ∈ join p := by
    match p, h2 with
    | k :: k' :: ks, _ => simp [join]
  -- a member of the whole path cannot come from the setting, whose first component has no separator
  rw [setParam_plain l p v hp h]
  match p, h2 with
  | k :: k' :: ks, _ =>
    have hk : k ≠ join (k :: k' :: ks) := fun e => hp.2 k (by simp) (e ▸ hs)
    have hnone : findM l (join (k :: k' :: ks)) = none := findM_none l _ (by
      intro hm
      obtain ⟨m, hm, e⟩ := List.mem_map.1 hm
      exact hn m hm e)
    simp only [put]
    split
    · simp only [getParamOr]
      rw [findM_setM_other _ _ _ _ (Ne.symm hk), hnone]
    · simp only [getParamOr]
      rw [findM_none _ _ (by
        intro hm
        rw [List.map_append, List.mem_append] at hm
        rcases hm with hm | hm
        · obtain ⟨m, hm, e⟩ := List.mem_map.1 hm
          exact hn m hm e
        · exact hk (List.mem_singleton.1 hm).symm)]

/-- And the other way round: a member whose name has a separator is found with a default, never without. -/
theorem C182_separator (l : List (Str × Json)) (p : List Str) (v : Json) (hp : Path p) (hn : ∀ x, ¬ At p (.obj l) x) (k : Str)
    (hk : k = join p) (b a : List (Str × Json)) (hl : l = b ++ (k, v) :: a) (hf : ∀ m ∈ b, m.1 ≠ k) :
    getParamOr (some (.obj l)) k = some (some v) ∧ getParam (some (.obj l)) k = none := by
  subst hl
  refine ⟨by simp only [getParamOr, findM_first b a k v hf], ?_⟩
  subst hk
  simp only [getParam, Option.bind_some, splitAll_join p hp]
  cases hg : get p (.obj (b ++ (join p, v) :: a)) with
  | none => rfl
  | some x => exact absurd ((get_at _ _ _).1 hg) (hn x)

/-- What holds: true of the names without a separator, for parameters that are an object. -/
theorem C182_partial (l : List (Str × Json)) (k : Str) (hk : '/' ∉ k) :
    (∀ v, At [k] (.obj l) v → getParamOr (some (.obj l)) k = some (some v)) ∧
    ((∀ v, ¬ At [k] (.obj l) v) → getParamOr (some (.obj l)) k = some none) ∧
    getParamOr (some (.obj l)) k = some (getParam (some (.obj l)) k) := by
  have e : getParam (some (.obj l)) k = findM l k := by
    simp only [getParam, Option.bind_some, splitAll_plain k hk, get]
    cases findM l k <;> rfl
  refine ⟨fun v hv => ?_, fun hn => ?_, by rw [e]; rfl⟩
  · have hg := (get_at _ _ _).2 hv
    simp only [get] at hg
    simp only [getParamOr]
    cases hf : findM l k with
    | none => rw [hf] at hg; cases hg
    | some x => rw [hf] at hg; cases hg; rfl
  · simp only [getParamOr]
    cases hf : findM l k with
    | none => rfl
    | some x =>
      obtain ⟨b, a, rfl, hb⟩ := findM_split l k x hf
      exact absurd (.inside k [] b a x x hb (.here x)) (hn x)

/-- Without parameters it is the default, for any name. -/
theorem C182_absent (k : Str) : getParamOr none k = some none := rfl

/-- Parameters that are no object are refused with an exception, for any name, and only those. -/
theorem C182_no_object (params : Json) (k : Str) : getParamOr (some params) k = none ↔ ∀ l, params ≠ .obj l := by
  constructor
  · intro h l e
    subst e
    cases h
  · intro h
    cases params with
    | obj l => exact absurd rfl (h l)
    | _ => rfl

/-- What the processes read with a default are integers, and names without a separator: the default if there is no such member,
the integer if it is one of 32 bits, an exception otherwise. -/
theorem C182_int (m : Msg) (l : List (Str × Json)) (hm : m.params = some (.obj l)) (name : String) (hk : '/' ∉ name.toList) (d : Int) :
    ((∀ v, ¬ At [name.toList] (.obj l) v) → Notices.intParam m name d = some d) ∧
    (∀ i : Int, At [name.toList] (.obj l) (.num i) → -2147483648 ≤ i → i < 2147483648 → Notices.intParam m name d = some i) ∧
    (∀ v, At [name.toList] (.obj l) v → (∀ i : Int, v = .num i → i < -2147483648 ∨ 2147483648 ≤ i) → Notices.intParam m name d = none) := by
  obtain ⟨h1, h2, _⟩ := C182_partial l name.toList hk
  refine ⟨fun h => ?_, fun i h hl hu => ?_, fun v h hv => ?_⟩
  · simp only [Notices.intParam, hm, h2 h]
  · simp only [Notices.intParam, hm, h1 _ h, Json.asInt]
    rw [if_pos ⟨hl, hu⟩]
  · simp only [Notices.intParam, hm, h1 _ h]
    cases v with
    | num i =>
      simp only [Json.asInt]
      rw [if_neg]
      rintro ⟨a, b⟩
      rcases hv i rfl with h | h <;> omega
    | _ => rfl

/-- Non-vacuity. -/
example : At ["buffer_id".toList] (.obj [("frame".toList, .num 1), ("buffer_id".toList, .num 7)]) (.num 7) := (get_at _ _ _).1 rfl
example : Path ["hdf".toList, "frames".toList] ∧ PlainPath ["hdf".toList, "frames".toList] ∧ ¬ Blocked ["hdf".toList, "frames".toList] (.obj []) := by
  refine ⟨⟨by simp, by decide⟩, ⟨fun k h => ?_, fun k h => ?_⟩, ?_⟩
  · cases h; exact ⟨by decide, fun s e => by have := congrArg (List.getLast? ·) e; simp at this⟩
  · cases h; exact ⟨by decide, fun s e => by have := congrArg (List.getLast? ·) e; simp at this⟩
  · rintro ⟨q, r, x, e, hr, hg, hn⟩
    cases q with
    | nil => cases hg; exact hn _ rfl
    | cons a q => simp only [get, findM] at hg; cases hg

end Verif.Ipc
