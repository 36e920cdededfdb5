import Verif.Model.IpcMessage

/-!
C39: message parameters round trip; C40: names of message types and values round trip; C62: encoding and decoding a
message round trip; C63: updating a message from another one.
-/
namespace Verif.Ipc

/-! ## Specification: paths -/

/-- The name of a parameter at a path. -/
def join : List Str → Str
  | [] => []
  | [k] => k
  | k :: k' :: ks => k ++ '/' :: join (k' :: ks)

/-- Components of paths do not contain the separator. -/
def Path (p : List Str) : Prop := p ≠ [] ∧ ∀ k ∈ p, '/' ∉ k

/-- One path lies below the other one. -/
def Related (p q : List Str) : Prop := p <+: q ∨ q <+: p

/-- There is a value on the way to `p` that is not an object. -/
def Blocked (p : List Str) (j : Json) : Prop :=
  ∃ q r x, p = q ++ r ∧ r ≠ [] ∧ get q j = some x ∧ ∀ m, x ≠ .obj m

/-- The full claim: setting a parameter that can be set makes it readable and leaves unrelated ones alone. -/
def C39_statement : Prop :=
  ∀ (l : List (Str × Json)) (p : List Str) (v : Json), Path p → (∀ k ∈ p, k ≠ []) → ¬ Blocked p (.obj l) →
    (setParam (.obj l) (join p) v).2 = .ok ∧
    getParam (some (setParam (.obj l) (join p) v).1) (join p) = some v ∧
    ∀ q, Path q → ¬ Related p q →
      getParam (some (setParam (.obj l) (join p) v).1) (join q) = getParam (some (.obj l)) (join q)

/-- At least two characters, and not the notation for appending to an array. -/
def Plain (k : Str) : Prop := 2 ≤ k.length ∧ ∀ s, k ≠ s ++ ['[', ']']

/-! ## Splitting -/

theorem splitAll_ne (s : Str) : splitAll s ≠ [] := by
  cases s with
  | nil => simp [splitAll]
  | cons c s =>
    unfold splitAll
    split
    · simp
    · split <;> simp

theorem splitAll_plain (k : Str) (h : '/' ∉ k) : splitAll k = [k] := by
  induction k with
  | nil => rfl
  | cons c k ih =>
    have h1 : c ≠ '/' := fun e => h (by simp [e])
    have h2 : '/' ∉ k := fun e => h (by simp [e])
    simp [splitAll, h1, ih h2]

theorem splitAll_cons (k s : Str) (h : '/' ∉ k) : splitAll (k ++ '/' :: s) = k :: splitAll s := by
  induction k with
  | nil => simp [splitAll]
  | cons c k ih =>
    have h1 : c ≠ '/' := fun e => h (by simp [e])
    have h2 : '/' ∉ k := fun e => h (by simp [e])
    simp [splitAll, h1, ih h2]

theorem splitAll_join (p : List Str) (h : Path p) : splitAll (join p) = p := by
  obtain ⟨h0, h⟩ := h
  induction p with
  | nil => exact absurd rfl h0
  | cons k p ih =>
    cases p with
    | nil => exact splitAll_plain k (h k (by simp))
    | cons k' p =>
      show splitAll (k ++ '/' :: join (k' :: p)) = _
      rw [splitAll_cons k _ (h k (by simp)), ih (by simp) (fun x hx => h x (by simp [hx]))]

theorem getlines_join (p : List Str) (h : Path p) (hl : p.getLast? ≠ some []) : getlines (join p) = p := by
  unfold getlines
  rw [splitAll_join p h]
  cases p with
  | nil => rfl
  | cons k p => simp only [if_neg hl]

/-! ## Members -/

theorem findM_setM_same (l : List (Str × Json)) (k : Str) (v : Json) (h : findM l k ≠ none) :
    findM (setM l k v) k = some v := by
  induction l with
  | nil => exact absurd rfl h
  | cons a l ih =>
    obtain ⟨n, x⟩ := a
    by_cases hn : n = k
    · simp [setM, findM, hn]
    · simp only [setM, findM, if_neg hn] at h ⊢
      exact ih h

theorem findM_setM_other (l : List (Str × Json)) (k k' : Str) (v : Json) (h : k' ≠ k) :
    findM (setM l k v) k' = findM l k' := by
  induction l with
  | nil => rfl
  | cons a l ih =>
    obtain ⟨n, x⟩ := a
    by_cases hn : n = k
    · subst hn
      have : ¬ n = k' := fun e => h e.symm
      simp [setM, findM, this]
    · by_cases hn' : n = k'
      · simp only [setM, if_neg hn, findM, if_pos hn']
      · simp only [setM, findM, if_neg hn, if_neg hn', ih]

theorem findM_append (l : List (Str × Json)) (k k' : Str) (v : Json) (h : findM l k = none) :
    findM (l ++ [(k, v)]) k' = if k' = k then some v else findM l k' := by
  induction l with
  | nil =>
    by_cases hk : k = k'
    · simp [findM, hk]
    · have : ¬ k' = k := fun e => hk e.symm
      simp [findM, hk, this]
  | cons a l ih =>
    obtain ⟨n, x⟩ := a
    have hn : ¬ n = k := by
      intro e; simp [findM, e] at h
    simp only [findM, if_neg hn] at h
    simp only [List.cons_append, findM, ih h]
    by_cases hn' : n = k'
    · subst hn'
      simp [hn]
    · simp [hn']

theorem setM_same (l : List (Str × Json)) (k : Str) (v : Json) (h : findM l k = some v) : setM l k v = l := by
  induction l with
  | nil => rfl
  | cons a l ih =>
    obtain ⟨n, x⟩ := a
    by_cases hn : n = k
    · simp only [findM, if_pos hn, Option.some.injEq] at h
      simp [setM, hn, h]
    · simp only [findM, if_neg hn] at h
      simp [setM, hn, ih h]

/-! ## Setting along a path: change the value at the end with `f`, creating what is missing -/

def put (f : Json → Json) : List Str → Json → Json × Res
  | [], j => (f j, .ok)
  | k :: ks, .obj l =>
    match findM l k with
    | some x => (.obj (setM l k (put f ks x).1), (put f ks x).2)
    | none => (.obj (l ++ [(k, (put f ks (.obj [])).1)]), (put f ks (.obj [])).2)
  | _ :: _, j => (j, .assertion)

theorem put_get (f : Json → Json) (p : List Str) (j : Json) (h : (put f p j).2 = .ok) :
    get p (put f p j).1 = some (f ((get p j).getD (.obj []))) := by
  induction p generalizing j with
  | nil => rfl
  | cons k ks ih =>
    cases j with
    | obj l =>
      simp only [put] at h ⊢
      cases hf : findM l k with
      | some x =>
        simp only [hf] at h ⊢
        simp only [get, findM_setM_same l k _ (by rw [hf]; simp), hf, Option.bind_some]
        exact ih x h
      | none =>
        simp only [hf] at h ⊢
        simp only [get, findM_append l k k _ hf, if_true, hf, Option.bind_some, Option.bind_none, Option.getD_none]
        rw [ih _ h]
        cases ks <;> rfl
    | _ => simp [put] at h

theorem put_other (f : Json → Json) (p q : List Str) (j : Json) (h : ¬ Related p q) :
    get q (put f p j).1 = get q j := by
  induction p generalizing j q with
  | nil => exact absurd (Or.inl (List.nil_prefix)) h
  | cons k ks ih =>
    cases q with
    | nil => exact absurd (Or.inr (List.nil_prefix)) h
    | cons k' q =>
      cases j with
      | obj l =>
        by_cases hk : k' = k
        · subst hk
          have hr : ¬ Related ks q := by
            intro hr; apply h
            rcases hr with hr | hr
            · exact Or.inl ((List.cons_prefix_cons).2 ⟨rfl, hr⟩)
            · exact Or.inr ((List.cons_prefix_cons).2 ⟨rfl, hr⟩)
          cases hf : findM l k' with
          | some x =>
            simp only [put, hf, get, findM_setM_same l k' _ (by rw [hf]; simp), Option.bind_some]
            exact ih q x hr
          | none =>
            simp only [put, hf, get, findM_append l k' k' _ hf, if_true, Option.bind_some, Option.bind_none]
            rw [ih q _ hr]
            cases q with
            | nil => exact absurd (Or.inr (List.nil_prefix)) hr
            | cons a q => rfl
        · cases hf : findM l k with
          | some x => simp only [put, hf, get, findM_setM_other l k k' _ hk]
          | none => simp only [put, hf, get, findM_append l k k' _ hf, if_neg hk]
      | _ => rfl

theorem put_empty (f : Json → Json) (p : List Str) : (put f p (.obj [])).2 = .ok := by
  induction p with
  | nil => rfl
  | cons k ks ih => simp only [put, findM, ih]

theorem put_fail (f : Json → Json) (p : List Str) (j : Json) (h : (put f p j).2 ≠ .ok) :
    put f p j = (j, .assertion) := by
  induction p generalizing j with
  | nil => exact absurd rfl h
  | cons k ks ih =>
    cases j with
    | obj l =>
      cases hf : findM l k with
      | some x =>
        simp only [put, hf] at h ⊢
        rw [ih x h]
        simp only [setM_same l k x hf]
      | none =>
        simp only [put, hf] at h
        exact absurd (put_empty f ks) h
    | _ => rfl

theorem put_ok (f : Json → Json) (p : List Str) (j : Json) : (put f p j).2 = .ok ↔ ¬ Blocked p j := by
  induction p generalizing j with
  | nil =>
    refine ⟨fun _ ⟨q, r, x, e, hr, _⟩ => ?_, fun _ => rfl⟩
    have := List.append_eq_nil_iff.1 e.symm
    exact hr this.2
  | cons k ks ih =>
    cases j with
    | obj l =>
      cases hf : findM l k with
      | some x =>
        simp only [put, hf, ih x]
        refine not_congr ⟨fun ⟨q, r, y, e, hr, hg, hn⟩ => ⟨k :: q, r, y, by rw [e]; rfl, hr, ?_, hn⟩,
          fun ⟨q, r, y, e, hr, hg, hn⟩ => ?_⟩
        · simp only [get, hf, Option.bind_some, hg]
        · cases q with
          | nil =>
            simp only [get, Option.some.injEq] at hg
            exact absurd hg.symm (hn l)
          | cons a q =>
            simp only [List.cons_append, List.cons.injEq] at e
            obtain ⟨rfl, e⟩ := e
            simp only [get, hf, Option.bind_some] at hg
            exact ⟨q, r, y, e, hr, hg, hn⟩
      | none =>
        simp only [put, hf, put_empty, true_iff]
        intro ⟨q, r, y, e, hr, hg, hn⟩
        cases q with
        | nil =>
          simp only [get, Option.some.injEq] at hg
          exact absurd hg.symm (hn l)
        | cons a q =>
          simp only [List.cons_append, List.cons.injEq] at e
          obtain ⟨rfl, e⟩ := e
          simp [get, hf] at hg
    | null => exact ⟨fun h => by simp [put] at h, fun h => absurd ⟨[], k :: ks, _, rfl, by simp, rfl, by simp⟩ h⟩
    | bool b => exact ⟨fun h => by simp [put] at h, fun h => absurd ⟨[], k :: ks, _, rfl, by simp, rfl, by simp⟩ h⟩
    | num b => exact ⟨fun h => by simp [put] at h, fun h => absurd ⟨[], k :: ks, _, rfl, by simp, rfl, by simp⟩ h⟩
    | dbl b => exact ⟨fun h => by simp [put] at h, fun h => absurd ⟨[], k :: ks, _, rfl, by simp, rfl, by simp⟩ h⟩
    | str b => exact ⟨fun h => by simp [put] at h, fun h => absurd ⟨[], k :: ks, _, rfl, by simp, rfl, by simp⟩ h⟩
    | arr b => exact ⟨fun h => by simp [put] at h, fun h => absurd ⟨[], k :: ks, _, rfl, by simp, rfl, by simp⟩ h⟩

/-! ## `set_param` is `put` -/

theorem isArray_plain (k : Str) (h : Plain k) : isArray k = some false := by
  unfold isArray
  rw [if_neg (by have := h.1; omega)]
  congr 1
  apply decide_eq_false
  intro e
  apply h.2 (k.take (k.length - 2))
  rw [← e, List.take_append_drop]

theorem isArray_array (s : Str) : isArray (s ++ ['[', ']']) = some true := by
  unfold isArray
  rw [if_neg (by simp)]
  simp

theorem chop_array (s : Str) : chop (s ++ ['[', ']']) = s := by
  unfold chop
  rw [if_neg (by simp)]
  simp

theorem walk_plain (v : Json) (last : Str) (h : Plain last) (ks : List Str) (j : Json) :
    walk v last false ks j = put (fun _ => v) ks j := by
  induction ks generalizing j with
  | nil => rfl
  | cons k ks ih =>
    have hc : checked last k false = some false := by
      unfold checked
      split
      · next e => rw [e, isArray_plain last h]; rfl
      · rfl
    cases j with
    | obj l =>
      simp only [walk, hc, put, ih, List.cons_append, Bool.false_eq_true, if_false]
      cases findM l k <;> rfl
    | _ => simp [walk, hc, put]

theorem walk_array (v : Json) (s : Str) (ks : List Str) (h : s ++ ['[', ']'] ∉ ks) (j : Json) :
    walk v (s ++ ['[', ']']) false (ks ++ [s ++ ['[', ']']]) j = put (final true v) (ks ++ [s]) j := by
  induction ks generalizing j with
  | nil =>
    have hc : checked (s ++ ['[', ']']) (s ++ ['[', ']']) false = some true := by
      simp [checked, isArray_array]
    cases j with
    | obj l =>
      simp only [List.nil_append, walk, hc, put, chop_array, if_true]
      cases findM l s <;> rfl
    | _ => simp [walk, hc, put]
  | cons k ks ih =>
    have hc : checked (s ++ ['[', ']']) k false = some false := by
      unfold checked
      rw [if_neg]
      intro e
      exact h (by simp [e])
    have ih := ih (fun e => h (by simp [e]))
    cases j with
    | obj l =>
      simp only [walk, hc, put, ih, List.cons_append, Bool.false_eq_true, if_false]
      cases findM l k <;> rfl
    | _ => simp [walk, hc, put]

/-- The first component is plain, and so is the last one. -/
def PlainPath (p : List Str) : Prop := (∀ k, p.head? = some k → Plain k) ∧ ∀ k, p.getLast? = some k → Plain k

theorem setParts_plain (l : List (Str × Json)) (p : List Str) (v : Json) (h0 : p ≠ []) (h : PlainPath p) :
    setParts (.obj l) p v = put (fun _ => v) p (.obj l) := by
  cases p with
  | nil => exact absurd rfl h0
  | cons k ks =>
    have hk := isArray_plain k (h.1 k rfl)
    cases ks with
    | nil =>
      simp only [setParts, hk, put, walk, final]
      rfl
    | cons k' ks =>
      have hl : Plain (((k' :: ks).getLast?).getD []) := by
        have := h.2 (((k' :: ks).getLast?).getD [])
        apply this
        simp [List.getLast?_cons]
      simp only [setParts, hk, walk_plain v _ hl]
      rfl

theorem setParam_plain (l : List (Str × Json)) (p : List Str) (v : Json) (hp : Path p) (h : PlainPath p) :
    setParam (.obj l) (join p) v = put (fun _ => v) p (.obj l) := by
  unfold setParam
  rw [getlines_join p hp (fun e => by have := (h.2 [] e).1; simp at this), setParts_plain l p v hp.1 h]

/-! ## C39 -/

/-- Missing from the full claim: names whose first or last component has fewer than two characters or ends in "[]".
For all others: a parameter can be set exactly if nothing on the way is other than an object; then it reads back. -/
theorem C39_partial (l : List (Str × Json)) (p : List Str) (v : Json) (hp : Path p) (h : PlainPath p)
    (hb : ¬ Blocked p (.obj l)) :
    (setParam (.obj l) (join p) v).2 = .ok ∧
    getParam (some (setParam (.obj l) (join p) v).1) (join p) = some v ∧
    ∀ q, Path q → ¬ Related p q →
      getParam (some (setParam (.obj l) (join p) v).1) (join q) = getParam (some (.obj l)) (join q) := by
  rw [setParam_plain l p v hp h]
  have hok := (put_ok (fun _ => v) p (.obj l)).2 hb
  refine ⟨hok, ?_, fun q hq hr => ?_⟩
  · simp only [getParam, Option.bind_some, splitAll_join p hp]
    exact put_get _ p _ hok
  · simp only [getParam, Option.bind_some, splitAll_join q hq]
    exact put_other _ p q _ hr

/-- A parameter behind something other than an object is refused with a message exception, and nothing is changed. -/
theorem C39_refused_partial (l : List (Str × Json)) (p : List Str) (v : Json) (hp : Path p) (h : PlainPath p)
    (hb : Blocked p (.obj l)) : setParam (.obj l) (join p) v = (.obj l, .assertion) := by
  rw [setParam_plain l p v hp h]
  exact put_fail _ p _ (fun e => (put_ok _ p _).1 e hb)

/-- Appending: "path[]" turns the value at the path into an array if it is none and adds the value at its end. -/
theorem C39_append_partial (l : List (Str × Json)) (p : List Str) (s : Str) (v : Json)
    (hp : Path (p ++ [s])) (h : ∀ k, p.head? = some k → Plain k) (hs : s ++ ['[', ']'] ∉ p)
    (hb : ¬ Blocked (p ++ [s]) (.obj l)) :
    (setParam (.obj l) (join (p ++ [s ++ ['[', ']']])) v).2 = .ok ∧
    getParam (some (setParam (.obj l) (join (p ++ [s ++ ['[', ']']])) v).1) (join (p ++ [s])) =
      some (match getParam (some (.obj l)) (join (p ++ [s])) with
        | some (.arr a) => .arr (a ++ [v])
        | _ => .arr [v]) ∧
    ∀ q, Path q → ¬ Related (p ++ [s]) q →
      getParam (some (setParam (.obj l) (join (p ++ [s ++ ['[', ']']])) v).1) (join q) = getParam (some (.obj l)) (join q) := by
  have hp' : Path (p ++ [s ++ ['[', ']']]) := by
    refine ⟨by simp, fun k hk => ?_⟩
    rcases List.mem_append.1 hk with hk | hk
    · exact hp.2 k (by simp [hk])
    · have e : k = s ++ ['[', ']'] := by simpa using hk
      have := hp.2 s (by simp)
      rw [e]
      simp [this]
  have key : setParam (.obj l) (join (p ++ [s ++ ['[', ']']])) v = put (final true v) (p ++ [s]) (.obj l) := by
    unfold setParam
    rw [getlines_join _ hp' (by simp)]
    cases p with
    | nil =>
      simp only [List.nil_append, setParts, isArray_array, chop_array, put, walk, if_true]
      rfl
    | cons k ks =>
      have hk := isArray_plain k (h k rfl)
      have hks : s ++ ['[', ']'] ∉ ks := fun e => hs (by simp [e])
      have hl : ((ks ++ [s ++ ['[', ']']]).getLast?).getD [] = s ++ ['[', ']'] := by simp
      simp only [List.cons_append, setParts, hk, hl, walk_array v s ks hks]
      rfl
  rw [key]
  have hok := (put_ok (final true v) (p ++ [s]) (.obj l)).2 hb
  refine ⟨hok, ?_, fun q hq hr => ?_⟩
  · simp only [getParam, Option.bind_some, splitAll_join _ hp]
    rw [put_get _ _ _ hok]
    simp only [final, if_true]
    cases hg : get (p ++ [s]) (.obj l) with
    | none => rfl
    | some x => cases x <;> rfl
  · simp only [getParam, Option.bind_some, splitAll_join q hq]
    exact put_other _ _ q _ hr

/-- `has_param` says whether `get_param` finds the parameter. -/
theorem C39_has (params : Json) (p : List Str) (hp : Path p) (b : Bool) (h : hasParam (some params) (join p) = some b) :
    (getParam (some params) (join p)).isSome = b := by
  simp only [hasParam, getParam, Option.bind_some, splitAll_join p hp] at h ⊢
  have h0 := hp.1
  clear hp
  induction p generalizing params with
  | nil => exact absurd rfl h0
  | cons k ks ih =>
    cases params with
    | obj l =>
      cases hf : findM l k with
      | none =>
        simp only [has, hf, Option.some.injEq] at h
        simp [get, hf, ← h]
      | some x =>
        cases ks with
        | nil =>
          simp only [has, hf, Option.some.injEq] at h
          simp [get, hf, ← h]
        | cons k' ks =>
          simp only [has, hf] at h
          simp only [get, hf, Option.bind_some]
          exact ih x h (by simp)
    | _ => simp [has] at h

theorem getlines_slash (p : List Str) (h : Path p) : getlines (join p ++ ['/']) = p := by
  have hj : ∀ p : List Str, p ≠ [] → join p ++ ['/'] = join (p ++ [[]]) := by
    intro p
    induction p with
    | nil => intro h; exact absurd rfl h
    | cons k p ih =>
      intro _
      cases p with
      | nil => rfl
      | cons k' p =>
        show (k ++ '/' :: join (k' :: p)) ++ ['/'] = k ++ '/' :: join ((k' :: p) ++ [[]])
        rw [← ih (by simp)]
        simp
  rw [hj p h.1]
  unfold getlines
  rw [splitAll_join (p ++ [[]]) ⟨by simp, fun k hk => by
    rcases List.mem_append.1 hk with hk | hk
    · exact h.2 k hk
    · rw [List.mem_singleton.1 hk]; simp⟩]
  simp

/-- A slash at the end of a name changes nothing in setting it. -/
theorem C39_slash (params : Json) (p : List Str) (v : Json) (hp : Path p) (hl : p.getLast? ≠ some []) :
    setParam params (join p ++ ['/']) v = setParam params (join p) v := by
  unfold setParam
  rw [getlines_slash p hp, getlines_join p hp hl]

example : setParam (.obj []) "config/".toList (.num 1) = (.obj [("config".toList, .num 1)], .ok) := rfl

/-- The code refuses names of one character with an exception that is not a message exception. -/
theorem C39_violated : ¬ C39_statement := by
  intro h
  have := (h [] [['a']] .null ⟨by simp, by simp⟩ (by simp) ?_).1
  · revert this; decide +kernel
  · intro ⟨q, r, x, e, hr, hg, hn⟩
    cases q with
    | nil =>
      simp only [get, Option.some.injEq] at hg
      exact hn [] hg.symm
    | cons a q =>
      simp only [List.cons_append, List.cons.injEq, List.nil_eq, List.append_eq_nil_iff] at e
      exact hr e.2.2

/-- Setting "config/x" is refused although "config" and nothing else has been created for it. -/
theorem C39_changed : ∃ j, setParam (.obj []) "config/x".toList (.num 1) = (j, .range) ∧
    hasParam (some j) "config".toList = some true := ⟨_, rfl, by decide +kernel⟩

/-- A name ending in "[]" is accepted but cannot be read back. -/
theorem C39_brackets : (setParam (.obj []) "list[]".toList (.num 1)).2 = .ok ∧
    (getParam (some (setParam (.obj []) "list[]".toList (.num 1)).1) "list[]".toList).isNone = true := by decide +kernel

/-- Non-vacuity of `C39_refused_partial`: a parameter below a number. -/
example : Blocked ["rank".toList, "size".toList] (.obj [("rank".toList, .num 2)]) :=
  ⟨["rank".toList], ["size".toList], .num 2, rfl, by simp, rfl, by simp⟩

/-- Non-vacuity of `C39_partial`: a nested path with one existing member. -/
example : (setParam (.obj [("hdf".toList, .obj [("frames".toList, .num 3)])]) "hdf/dataset/name".toList (.str "d".toList)).2 = .ok ∧
    ((getParam (some (setParam (.obj [("hdf".toList, .obj [("frames".toList, .num 3)])]) "hdf/dataset/name".toList
      (.str "d".toList)).1) "hdf/frames".toList).bind Json.asInt) = some 3 ∧
    ((getParam (some (setParam (.obj [("hdf".toList, .obj [("frames".toList, .num 3)])]) "hdf/dataset/name".toList
      (.str "d".toList)).1) "hdf/dataset/name".toList).bind Json.asStr) = some "d".toList := by decide +kernel

example : Path ["hdf".toList, "dataset".toList, "name".toList] := ⟨by simp, by decide +kernel⟩

/-! ## C40 -/

theorem C40_type (t : MsgType) : typeOf (typeName t) = t := by cases t <;> decide +kernel

theorem C40_val (v : MsgVal) : valOf (valName v) = v := by cases v <;> decide +kernel

/-- The documented names. -/
theorem C40_type_names : [MsgType.cmd, .ack, .nack, .notify].map typeName = ["cmd", "ack", "nack", "notify"].map String.toList := by
  decide +kernel

theorem left_some {α : Type} (m : List (Str × α)) (k : Str) (v : α) (h : left m k = some v) : (k, v) ∈ m := by
  induction m with
  | nil => simp [left] at h
  | cons a m ih =>
    obtain ⟨n, x⟩ := a
    unfold left at h
    split at h
    · next e => cases h; simp [e]
    · exact List.mem_cons_of_mem _ (ih h)

/-- Any text other than the name of a type is illegal. -/
theorem C40_type_unknown (s : Str) (h : ∀ t, t ≠ .illegal → s ≠ typeName t) : typeOf s = .illegal := by
  unfold typeOf
  cases hl : left (bimap typeMap) s with
  | none => rfl
  | some t =>
    have hm := left_some _ _ _ hl
    have : ∀ e ∈ bimap typeMap, e.2 ≠ .illegal ∧ e.1 = typeName e.2 := by decide +kernel
    obtain ⟨h1, h2⟩ := this _ hm
    exact absurd h2 (h t h1)

/-- Any text other than the name of a value is illegal. -/
theorem C40_val_unknown (s : Str) (h : ∀ v, v ≠ .illegal → s ≠ valName v) : valOf s = .illegal := by
  unfold valOf
  cases hl : left (bimap valMap) s with
  | none => rfl
  | some t =>
    have hm := left_some _ _ _ hl
    have : ∀ e ∈ bimap valMap, e.2 ≠ .illegal ∧ e.1 = valName e.2 := by decide +kernel
    obtain ⟨h1, h2⟩ := this _ hm
    exact absurd h2 (h t h1)

example : typeOf "Cmd".toList = .illegal ∧ valOf "illegal".toList = .illegal ∧ valOf "none".toList = .illegal := by decide +kernel

/-! ## C62: encoding and decoding a message -/

theorem findM_setAttr (l : List (Str × Json)) (k k' : Str) (v : Json) :
    findM (setAttr l k v) k' = if k' = k then some v else findM l k' := by
  unfold setAttr
  cases hf : findM l k with
  | some x =>
    by_cases h : k' = k
    · subst h
      rw [if_pos rfl]
      exact findM_setM_same l k' v (by rw [hf]; simp)
    · rw [if_neg h]
      exact findM_setM_other l k k' v h
  | none => exact findM_append l k k' v hf

/-- A message with a legal type, value, id and time stamp and a params block encodes to a document that is accepted
strictly and gives the same message; all its other attributes are unchanged. -/
theorem C62 (T : Times) (m : Msg) (id t : Nat) (ps : List (Str × Json))
    (hT : T.parse (T.text (some t)) = some t) (ht : m.type ≠ .illegal) (hv : m.val ≠ .illegal)
    (hid : m.id = some id) (hr : id < 4294967296) (htime : m.time = some t) (hp : m.params = some (.obj ps)) :
    ∃ d m', encode T m = some d ∧ decode T true (.obj d) = some m' ∧
      m'.type = m.type ∧ m'.val = m.val ∧ m'.id = m.id ∧ m'.time = m.time ∧ m'.params = m.params ∧
      ∀ k, k ∉ ["msg_type", "msg_val", "id", "timestamp"].map String.toList → findM m'.doc k = findM m.doc k := by
  have hm1 := C40_type m.type
  have hm2 := C40_val m.val
  have e : encode T m = some (setAttr (setAttr (setAttr (setAttr m.doc "msg_type".toList (.str (typeName m.type)))
      "msg_val".toList (.str (valName m.val))) "id".toList (.num id)) "timestamp".toList (.str (T.text m.time))) := by
    simp only [encode, hid, Option.map_some]
  generalize hd : setAttr (setAttr (setAttr (setAttr m.doc "msg_type".toList (.str (typeName m.type)))
      "msg_val".toList (.str (valName m.val))) "id".toList (.num id)) "timestamp".toList (.str (T.text m.time)) = d at e
  have f1 : findM d "msg_type".toList = some (.str (typeName m.type)) := by
    rw [← hd]; simp [findM_setAttr]
  have f2 : findM d "msg_val".toList = some (.str (valName m.val)) := by
    rw [← hd]; simp [findM_setAttr]
  have f3 : findM d "id".toList = some (.num id) := by
    rw [← hd]; simp [findM_setAttr]
  have f4 : findM d "timestamp".toList = some (.str (T.text m.time)) := by
    rw [← hd]; simp [findM_setAttr]
  have f5 : ∀ k, k ∉ ["msg_type", "msg_val", "id", "timestamp"].map String.toList → findM d k = findM m.doc k := by
    intro k hk
    simp only [List.map_cons, List.map_nil, List.mem_cons, List.not_mem_nil, or_false, not_or] at hk
    rw [← hd, findM_setAttr, if_neg hk.2.2.2, findM_setAttr, if_neg hk.2.2.1, findM_setAttr, if_neg hk.2.1,
      findM_setAttr, if_neg hk.1]
  have f6 : findM d "params".toList = some (.obj ps) := by
    rw [f5 _ (by decide +kernel)]; exact hp
  have g3 : idAttr d = some id := by
    simp only [idAttr, f3, Json.asUint]
    rw [if_pos (by omega)]
    simp
  have g4 : hasParams d = true := by simp only [hasParams, f6]
  refine ⟨d, { type := m.type, val := m.val, id := some id, time := some t, doc := d }, e, ?_, rfl, rfl, hid.symm,
    htime.symm, ?_, f5⟩
  · simp only [decode, strAttr, f1, f2, f4, hm1, hm2, htime, hT, g3, g4]
    rw [if_neg]
    simp [ht, hv]
  · show findM d "params".toList = m.params
    rw [f6, hp]

/-- The id of a decoded message is the one sent, or 0 if none was sent. -/
theorem C62_id (T : Times) (strict : Bool) (l : List (Str × Json)) (m : Msg) (h : decode T strict (.obj l) = some m) :
    (findM l "id".toList = none → m.id = some 0) ∧
      ∀ n : Nat, n < 2 ^ 32 → findM l "id".toList = some (.num n) → m.id = some n := by
  have hid : m.id = idAttr l := by
    unfold decode at h
    simp only at h
    (repeat' split at h) <;> first | (cases h; done) | (cases h; rfl)
  rw [hid]
  unfold idAttr
  refine ⟨fun hn => by rw [hn], fun n hn hf => ?_⟩
  rw [hf]
  simp only [Json.asUint]
  rw [if_pos (by omega)]
  simp

/-- Strict decoding accepts only complete and legal messages. -/
theorem C62_strict (T : Times) (j : Json) (m : Msg) (h : decode T true j = some m) :
    m.type ≠ .illegal ∧ m.val ≠ .illegal ∧ m.time ≠ none ∧ m.id ≠ none ∧ ∃ l, m.params = some (.obj l) := by
  unfold decode at h
  split at h
  · next l =>
    split at h
    · next t v time _ _ _ =>
      split at h
      · cases h
      · next hc =>
        cases h
        simp only [true_and, not_or] at hc
        obtain ⟨h1, h2, h3, h4, h5⟩ := hc
        refine ⟨h1, h2, h3, h4, ?_⟩
        show ∃ k, findM l "params".toList = some (.obj k)
        unfold hasParams at h5
        split at h5
        · next k hk => exact ⟨k, hk⟩
        · simp at h5
    · cases h
  · cases h

/-- Non-vacuity: a notification. -/
example : ((encode ⟨fun _ => "t".toList, fun _ => some 7⟩
    { type := .notify, val := .frameReady, id := some 5, time := some 7 }).bind
      (fun d => (decode ⟨fun _ => "t".toList, fun _ => some 7⟩ true (.obj d)).map (fun m => (m.type, m.val, m.id, m.time)))) =
    some (.notify, .frameReady, some 5, some 7) := by decide +kernel

/-! ## C63: updating a message from another one -/

/-- The full claim: all parameters of the other message are taken over, the others are kept. -/
def C63_statement : Prop :=
  ∀ (l o : List (Str × Json)), (o.map (·.1)).Nodup →
    ∃ l', update (.obj o) (.obj l) = (.obj l', .ok) ∧ ∀ k, findM l' k = (findM o k).or (findM l k)

theorem put_single (l : List (Str × Json)) (k : Str) (v : Json) :
    ∃ l', put (fun _ => v) [k] (.obj l) = (.obj l', .ok) ∧ ∀ k', findM l' k' = if k' = k then some v else findM l k' := by
  cases hf : findM l k with
  | some x =>
    refine ⟨setM l k v, by simp [put, hf], fun k' => ?_⟩
    by_cases h : k' = k
    · subst h
      rw [if_pos rfl]
      exact findM_setM_same l k' v (by rw [hf]; simp)
    · rw [if_neg h]
      exact findM_setM_other l k k' v h
  | none => exact ⟨l ++ [(k, v)], by simp [put, hf], fun k' => findM_append l k k' v hf⟩

theorem findM_mem (o : List (Str × Json)) (k : Str) (h : k ∈ o.map (·.1)) : ∃ v, findM o k = some v := by
  induction o with
  | nil => simp at h
  | cons a o ih =>
    obtain ⟨n, x⟩ := a
    by_cases hn : n = k
    · exact ⟨x, by simp [findM, hn]⟩
    · have h : k = n ∨ k ∈ o.map (·.1) := by simpa using h
      rcases h with h | h
      · exact absurd h.symm hn
      · obtain ⟨v, hv⟩ := ih h
        exact ⟨v, by simp [findM, hn, hv]⟩

theorem findM_none (o : List (Str × Json)) (k : Str) (h : k ∉ o.map (·.1)) : findM o k = none := by
  induction o with
  | nil => rfl
  | cons a o ih =>
    obtain ⟨n, x⟩ := a
    simp only [List.map_cons, List.mem_cons, not_or] at h
    have hn : ¬ n = k := fun e => h.1 e.symm
    simp [findM, hn, ih h.2]

theorem updateNames_plain (o : List (Str × Json)) (ns : List Str)
    (h : ∀ k ∈ ns, k ∈ o.map (·.1) ∧ Plain k ∧ '/' ∉ k) (l : List (Str × Json)) :
    ∃ l', updateNames (.obj o) (.obj l) ns = (.obj l', .ok) ∧
      ∀ k, findM l' k = if k ∈ ns then findM o k else findM l k := by
  induction ns generalizing l with
  | nil => exact ⟨l, rfl, fun k => by simp⟩
  | cons n ns ih =>
    obtain ⟨h1, h2, h3⟩ := h n (by simp)
    obtain ⟨v, hv⟩ := findM_mem o n h1
    have hg : getParam (some (.obj o)) n = some v := by
      simp [getParam, splitAll_plain n h3, get, hv]
    obtain ⟨l1, hl1, hf1⟩ := put_single l n v
    have hs : setParam (.obj l) n v = (.obj l1, .ok) := by
      rw [← hl1]
      exact setParam_plain l [n] v ⟨by simp, by simpa using h3⟩
        ⟨by simpa using h2, by simpa using h2⟩
    obtain ⟨l', hl', hf'⟩ := ih (fun k hk => h k (by simp [hk])) l1
    refine ⟨l', by simp only [updateNames, hg, hs, hl'], fun k => ?_⟩
    rw [hf', hf1]
    by_cases hk : k = n
    · subst hk
      simp [hv]
    · simp [hk]

/-- Missing from the full claim: other messages with a parameter whose name has fewer than two characters, ends in "[]"
or contains a slash. -/
theorem C63_partial (l o : List (Str × Json)) (h : ∀ k ∈ o.map (·.1), Plain k ∧ '/' ∉ k) :
    ∃ l', update (.obj o) (.obj l) = (.obj l', .ok) ∧ ∀ k, findM l' k = (findM o k).or (findM l k) := by
  obtain ⟨l', h1, h2⟩ := updateNames_plain o (o.map (·.1)) (fun k hk => ⟨hk, h k hk⟩) l
  refine ⟨l', h1, fun k => ?_⟩
  rw [h2]
  by_cases hk : k ∈ o.map (·.1)
  · obtain ⟨v, hv⟩ := findM_mem o k hk
    rw [if_pos hk, hv]
    rfl
  · rw [if_neg hk, findM_none o k hk]
    rfl

theorem C63_violated : ¬ C63_statement := by
  intro h
  obtain ⟨l', e, _⟩ := h [] [(['n'], .num 1)] (by decide +kernel)
  have : (update (.obj [(['n'], .num 1)]) (.obj [])).2 = .ok := by rw [e]
  revert this
  decide +kernel

/-- Non-vacuity of `C63_partial`. -/
example : Plain "udp".toList ∧ '/' ∉ "udp".toList := by
  refine ⟨⟨by decide +kernel, fun s e => ?_⟩, by decide +kernel⟩
  have h := congrArg (fun t : Str => t.getLast?) e
  simp at h

end Verif.Ipc
