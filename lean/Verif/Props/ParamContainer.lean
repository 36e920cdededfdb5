import Verif.Model.ParamContainer
import Verif.Props.IpcMessage
/-
C52: bound parameter containers round trip. C81: an update stores the values given, or is refused without effect.
-/
namespace Verif.Params
open Verif.Ipc

/-- The values a C++ variable of a type can have. -/
def Fits : Ty → Sc → Prop
  | .int, .num i => -2 ^ 31 ≤ i ∧ i < 2 ^ 31
  | .uint, .num i => 0 ≤ i ∧ i < 2 ^ 32
  | .u16, .num i => 0 ≤ i ∧ i < 2 ^ 16
  | .i64, .num i => -2 ^ 63 ≤ i ∧ i < 2 ^ 63
  | .u64, .num i => 0 ≤ i ∧ i < 2 ^ 64
  | .dbl, .dbl _ => True
  | .str, .str _ => True
  | .bool, .bool _ => True
  | .doc, .doc _ => True
  | _, _ => False

def scalars : Val → List Sc
  | .one v => [v]
  | .vec l => l

def isVec : Val → Bool
  | .one _ => false
  | .vec _ => true

/-- What a class fixes about a binding. -/
def shape (b : Binding) : Str × Ty × Bool := (b.path, b.ty, isVec b.val)

/-- Every parameter holds a value of its type. -/
def WellTyped (bs : List Binding) : Prop := ∀ b ∈ bs, ∀ v ∈ scalars b.val, Fits b.ty v

/-- C52: encoding a container and updating another one of the same class makes them equal. -/
def C52_statement : Prop := ∀ (conv : Int → Nat) (bs bs' : List Binding), (bs.map (·.path)).Nodup → WellTyped bs →
  bs'.map shape = bs.map shape → update conv (encode bs [] .null) bs' = (bs, true)

/-- A path that begins with a slash is encoded under an empty name, where the update does not look. -/
def exSlash (i : Int) : List Binding := [⟨"/a".toList, .int, .one (.num i)⟩]

/-- C52 fails: paths that begin with a slash. -/
theorem C52_violated : ¬ C52_statement := by
  intro h
  have h1 := h (fun _ => 0) (exSlash 5) (exSlash 7) (by decide +kernel)
    (by intro b hb v hv
        simp only [exSlash, List.mem_singleton] at hb
        subst hb
        simp only [scalars, List.mem_singleton] at hv
        subst hv
        simp [Fits])
    rfl
  have h2 : update (fun _ => 0) (encode (exSlash 5) [] .null) (exSlash 7) = (exSlash 7, true) := rfl
  rw [h2] at h1
  simp [exSlash] at h1

/-- C52 fails as well for a path inside another one: the outer parameter is overwritten, and the update throws. -/
theorem C52_nested :
    (update (fun _ => 0) (encode [⟨"ab".toList, .int, .one (.num 5)⟩, ⟨"ab/c".toList, .int, .one (.num 6)⟩] [] .null)
      [⟨"ab".toList, .int, .one (.num 5)⟩, ⟨"ab/c".toList, .int, .one (.num 6)⟩]).2 = false := rfl

/-- And for strings with a NUL character. -/
theorem C52_nul :
    (update (fun _ => 0) (encode [⟨"a".toList, .str, .one (.str ['x', '\x00', 'y'])⟩] [] .null)
      [⟨"a".toList, .str, .one (.str [])⟩]).1 = [⟨"a".toList, .str, .one (.str ['x'])⟩] := rfl

/-! Setting a pointer -/

theorem putP_get (v : Json) (p : List Str) (j : Json) : get p (putP v p j) = some v := by
  induction p generalizing j with
  | nil => rfl
  | cons k ks ih =>
    have hnew : ∀ x, get (k :: ks) (.obj [(k, putP v ks x)]) = some v := by
      intro x
      simp only [Ipc.get, findM, if_true, Option.bind_some]
      exact ih x
    cases j with
    | obj l =>
      simp only [putP]
      cases hf : findM l k with
      | some x =>
        simp only [Ipc.get]
        rw [findM_setM_same l k _ (by rw [hf]; simp)]
        exact ih x
      | none =>
        simp only [Ipc.get]
        rw [findM_append l k k _ hf, if_pos rfl]
        exact ih .null
    | null => exact hnew _
    | bool b => exact hnew _
    | num i => exact hnew _
    | dbl d => exact hnew _
    | str s => exact hnew _
    | arr l => exact hnew _

theorem related_cons (k : Str) (p q : List Str) : Related (k :: p) (k :: q) ↔ Related p q := by
  simp [Related]

theorem putP_other (v : Json) (p q : List Str) (j : Json) (h : ¬ Related p q) : get q (putP v p j) = get q j := by
  induction p generalizing q j with
  | nil => exact absurd (Or.inl (List.nil_prefix)) h
  | cons k ks ih =>
    cases q with
    | nil => exact absurd (Or.inr (List.nil_prefix)) h
    | cons c cs =>
      have hnull : ∀ x : Json, k = c → get cs (putP v ks x) = get cs x := by
        intro x e
        subst e
        exact ih cs x (fun hr => h ((related_cons k ks cs).2 hr))
      have hcs : k = c → cs ≠ [] := by
        intro e e2
        subst e e2
        exact h ((related_cons k ks []).2 (Or.inr List.nil_prefix))
      have hnn : k = c → get cs .null = none := by
        intro e
        cases hc : cs with
        | nil => exact absurd hc (hcs e)
        | cons a b => rfl
      have hnew : get (c :: cs) (.obj [(k, putP v ks .null)]) = none := by
        simp only [Ipc.get, findM]
        by_cases e : k = c
        · rw [if_pos e, Option.bind_some, hnull .null e, hnn e]
        · rw [if_neg e]; rfl
      cases j with
      | obj l =>
        simp only [putP]
        cases hf : findM l k with
        | some x =>
          simp only [Ipc.get]
          by_cases e : k = c
          · subst e
            rw [findM_setM_same l k _ (by rw [hf]; simp), hf]
            exact hnull x rfl
          · rw [findM_setM_other l k c _ (fun e' => e e'.symm)]
        | none =>
          simp only [Ipc.get]
          rw [findM_append l k c _ hf]
          by_cases e : c = k
          · subst e
            rw [if_pos rfl, hf, Option.bind_some, hnull .null rfl, hnn rfl]
            rfl
          · rw [if_neg e]
      | null => exact hnew
      | bool b => exact hnew
      | num i => exact hnew
      | dbl d => exact hnew
      | str s => exact hnew
      | arr l => exact hnew

/-! The round trip -/

/-- Where a binding is encoded. -/
def place (pre : Str) (b : Binding) : List Str := tokens (pointerPrefix pre ++ b.path)

theorem encode_other (bs : List Binding) (pre : Str) (d : Json) (q : List Str) (h : ∀ b ∈ bs, ¬ Related (place pre b) q) :
    get q (encode bs pre d) = get q d := by
  induction bs generalizing d with
  | nil => rfl
  | cons b bs ih =>
    have := ih (putP (getVal b.val) (place pre b) d) (fun x hx => h x (List.mem_cons_of_mem _ hx))
    refine this.trans ?_
    exact putP_other _ _ _ _ (h b (by simp))

/-- C52: every parameter is found in the document at its path behind the prefix, and everything else in the document is
as before; if no path is inside another one. -/
theorem C52_encode (bs : List Binding) (pre : Str) (d : Json)
    (hp : bs.Pairwise (fun a b => ¬ Related (place pre a) (place pre b))) :
    (∀ b ∈ bs, get (place pre b) (encode bs pre d) = some (getVal b.val)) ∧
    (∀ q, (∀ b ∈ bs, ¬ Related (place pre b) q) → get q (encode bs pre d) = get q d) := by
  refine ⟨?_, fun q hq => encode_other bs pre d q hq⟩
  induction bs generalizing d with
  | nil => intro b hb; cases hb
  | cons c bs ih =>
    intro b hb
    have h1 := List.pairwise_cons.1 hp
    rcases List.mem_cons.1 hb with rfl | hb
    · have := encode_other bs pre (putP (getVal b.val) (place pre b) d) (place pre b)
        (fun x hx hr => h1.1 x hx (Or.symm hr))
      exact this.trans (putP_get _ _ _)
    · exact ih (putP (getVal c.val) (place pre c) d) h1.2 b hb

theorem splitAll_append (a b : Str) : splitAll (a ++ '/' :: b) = splitAll a ++ splitAll b := by
  induction a with
  | nil => rfl
  | cons c a ih =>
    simp only [List.cons_append, splitAll, ih]
    split
    · rfl
    · cases h : splitAll a with
      | nil => exact absurd h (splitAll_ne a)
      | cons x t => rfl

/-- C52: the place of a parameter is its path inside the prefix. -/
theorem C52_place (pre : Str) (b : Binding) :
    (pre = [] → place pre b = splitAll b.path) ∧
    (pre ≠ [] → pre.getLast? ≠ some '/' → place pre b = splitAll pre ++ splitAll b.path) ∧
    (∀ q, pre = q ++ ['/'] → place pre b = splitAll q ++ splitAll b.path) := by
  refine ⟨?_, ?_, ?_⟩
  · intro h; subst h; rfl
  · intro h1 h2
    unfold place tokens pointerPrefix
    rw [if_neg h1, if_neg h2]
    simp only [List.cons_append, List.drop_succ_cons, List.drop_zero, List.append_assoc, List.nil_append]
    exact splitAll_append pre b.path
  · intro q h
    subst h
    unfold place tokens pointerPrefix
    rw [if_neg (by simp), if_pos (by simp)]
    simp only [List.cons_append, List.drop_succ_cons, List.drop_zero, List.append_assoc, List.nil_append]
    exact splitAll_append q b.path

example : place "a/b".toList { path := "c/d".toList, ty := .int, val := .one (.num 3) } =
    ["a".toList, "b".toList, "c".toList, "d".toList] := by decide

theorem cstr_id (s : Str) (h : '\x00' ∉ s) : cstr s = s := by
  unfold cstr
  induction s with
  | nil => rfl
  | cons c s ih =>
    simp only [List.mem_cons, not_or] at h
    have hc : (c ≠ '\x00') := fun e => h.1 e.symm
    rw [List.takeWhile_cons, if_pos (by simpa using hc), ih h.2]

/-- Without NUL characters. -/
def Clean : Sc → Prop
  | .str s => '\x00' ∉ s
  | _ => True

theorem set_get_value (conv : Int → Nat) (t : Ty) (v : Sc) (hf : Fits t v) (hc : Clean v) :
    setValue conv t (getValue v) = some v := by
  cases t <;> cases v <;> simp only [Fits] at hf <;> simp only [getValue, setValue]
  case int.num i => exact if_pos hf
  case uint.num i => exact if_pos hf
  case i64.num i => exact if_pos hf
  case u64.num i => exact if_pos hf
  case u16.num i =>
    rw [if_pos ⟨hf.1, by omega⟩]
    have : i % 2 ^ 16 = i := Int.emod_eq_of_lt hf.1 hf.2
    rw [this]
  case str.str s => rw [cstr_id s hc, cstr_id s hc]

theorem push_get (conv : Int → Nat) (t : Ty) (l : List Sc) (hf : ∀ v ∈ l, Fits t v) (hc : ∀ v ∈ l, Clean v) :
    pushAll conv t (l.map getValue) = (l, true) := by
  induction l with
  | nil => rfl
  | cons v l ih =>
    have h1 := set_get_value conv t v (hf v (by simp)) (hc v (by simp))
    have h2 := ih (fun x hx => hf x (List.mem_cons_of_mem _ hx)) (fun x hx => hc x (List.mem_cons_of_mem _ hx))
    simp only [List.map_cons, pushAll, h1, h2]

theorem setVal_get (conv : Int → Nat) (t : Ty) (v w : Val) (hv : isVec w = isVec v) (hf : ∀ x ∈ scalars v, Fits t x)
    (hc : ∀ x ∈ scalars v, Clean x) : setVal conv t w (getVal v) = (v, true) := by
  cases v with
  | one v =>
    cases w with
    | vec l => cases hv
    | one w =>
      simp only [getVal, setVal]
      rw [set_get_value conv t v (hf v (by simp [scalars])) (hc v (by simp [scalars]))]
  | vec l =>
    cases w with
    | one w => cases hv
    | vec l' =>
      simp only [getVal, setVal]
      rw [push_get conv t l hf hc]

theorem place_plain (b : Binding) (h : b.path.head? ≠ some '/') : tokens (pointerPath b.path) = place [] b := by
  simp only [pointerPath, place, pointerPrefix, if_neg h, if_true]
  rfl

/-- C52, for paths that do not begin with a slash, none of which is inside another one, and strings without NUL. -/
theorem C52_partial (conv : Int → Nat) (bs bs' : List Binding)
    (hp : bs.Pairwise (fun a b => ¬ Related (place [] a) (place [] b))) (hs : ∀ b ∈ bs, b.path.head? ≠ some '/')
    (ht : WellTyped bs) (hc : ∀ b ∈ bs, ∀ v ∈ scalars b.val, Clean v) (hsh : bs'.map shape = bs.map shape) :
    update conv (encode bs [] .null) bs' = (bs, true) := by
  have hfind := (C52_encode bs [] .null hp).1
  have key : ∀ (l l' : List Binding), (∀ b ∈ l, b ∈ bs) → l'.map shape = l.map shape →
      update conv (encode bs [] .null) l' = (l, true) := by
    intro l
    induction l with
    | nil =>
      intro l' _ h
      cases l' with
      | nil => rfl
      | cons b l' => cases h
    | cons b l ih =>
      intro l' hm h
      cases l' with
      | nil => cases h
      | cons b' l' =>
        simp only [List.map_cons, List.cons.injEq] at h
        obtain ⟨h1, h2⟩ := h
        have hb : b ∈ bs := hm b (by simp)
        obtain ⟨path, ty, val⟩ := b
        obtain ⟨path', ty', val'⟩ := b'
        simp only [shape, Prod.mk.injEq] at h1
        obtain ⟨e1, e2, e3⟩ := h1
        subst e1 e2
        have h3 := hfind _ hb
        rw [← place_plain _ (hs _ hb)] at h3
        have h4 := setVal_get conv ty' val val' e3 (ht _ hb) (hc _ hb)
        have h5 : updateOne conv (encode bs [] .null) ⟨path', ty', val'⟩ = (⟨path', ty', val⟩, true) := by
          simp only [updateOne]
          rw [h3]
          simp only [h4]
        have h6 := ih l' (fun x hx => hm x (List.mem_cons_of_mem _ hx)) h2
        simp only [update, h5, h6, if_true]
  exact key bs bs' (fun b hb => hb) hsh

/-- C52: parameters that are not in the document keep their values, and paths, types and order never change; also when
the update is refused. -/
theorem C52_absent (conv : Int → Nat) (doc : Json) (bs : List Binding) :
    (update conv doc bs).1.map shape = bs.map shape ∧
    ∀ (i : Nat) (b : Binding), bs[i]? = some b → get (tokens (pointerPath b.path)) doc = none → (update conv doc bs).1[i]? = some b := by
  have hshape : ∀ b, shape (updateOne conv doc b).1 = shape b := by
    intro b
    simp only [updateOne]
    cases get (tokens (pointerPath b.path)) doc with
    | none => rfl
    | some j =>
      simp only [shape]
      have : isVec (setVal conv b.ty b.val j).1 = isVec b.val := by
        cases b.val with
        | one v => simp only [setVal]; split <;> rfl
        | vec l => cases j <;> rfl
      rw [this]
  induction bs with
  | nil => exact ⟨rfl, fun i b h => by simp at h⟩
  | cons c bs ih =>
    simp only [update]
    split
    · refine ⟨by simp [hshape, ih.1], fun i b hi hn => ?_⟩
      cases i with
      | zero =>
        simp only [List.getElem?_cons_zero, Option.some.injEq] at hi ⊢
        subst hi
        simp only [updateOne, hn]
      | succ i =>
        simp only [List.getElem?_cons_succ] at hi ⊢
        exact ih.2 i b hi hn
    · refine ⟨by simp [hshape], fun i b hi hn => ?_⟩
      cases i with
      | zero =>
        simp only [List.getElem?_cons_zero, Option.some.injEq] at hi ⊢
        subst hi
        simp only [updateOne, hn]
      | succ i => simpa using hi

/-- Non-vacuity: an integer, a string and a vector, one of them two levels deep. -/
def exBs (i : Int) (s : String) (l : List Sc) : List Binding :=
  [⟨"a/b".toList, .int, .one (.num i)⟩, ⟨"a/c".toList, .str, .one (.str s.toList)⟩, ⟨"v".toList, .u16, .vec l⟩]
example : (exBs 5 "xy" [.num 3, .num 65535]).Pairwise (fun a b => ¬ Related (place [] a) (place [] b)) ∧
    ∀ b ∈ exBs 5 "xy" [.num 3, .num 65535], b.path.head? ≠ some '/' := by
  constructor
  · simp [exBs, place, pointerPrefix, tokens, splitAll, Related]
  · simp [exBs]
example : update (fun _ => 0) (encode (exBs 5 "xy" [.num 3, .num 65535]) [] .null) (exBs 1 "" []) =
    (exBs 5 "xy" [.num 3, .num 65535], true) := rfl

/-! C81 -/

/-- The value of a parameter is the value in the document. -/
def Same : Sc → Json → Prop
  | .num i, .num j => i = j
  | .dbl d, .dbl e => d = e
  | .dbl _, .num _ => True
  | .str s, .str t => s = t
  | .bool b, .bool c => b = c
  | .doc j, k => j = k
  | _, _ => False

def SameVal : Val → Json → Prop
  | .one v, j => Same v j
  | .vec l, .arr js => l.length = js.length ∧ ∀ (i : Nat) (v : Sc) (j : Json), l[i]? = some v → js[i]? = some j → Same v j
  | .vec _, _ => False

/-- C81: an update that succeeds gives every parameter in the document the value there; one that fails changes
nothing. -/
def C81_statement : Prop := ∀ (conv : Int → Nat) (doc : Json) (bs : List Binding),
  if (update conv doc bs).2 then
    ∀ (i : Nat) (b : Binding) (j : Json), (update conv doc bs).1[i]? = some b → get (tokens (pointerPath b.path)) doc = some j → SameVal b.val j
  else (update conv doc bs).1 = bs

/-- C81 fails: a number too large for 16 bits is cut. -/
theorem C81_violated : ¬ C81_statement := by
  intro h
  have h1 := h (fun _ => 0) (.obj [("a".toList, .num 65541)]) [⟨"a".toList, .u16, .one (.num 1)⟩]
  have h2 : update (fun _ => 0) (.obj [("a".toList, .num 65541)]) [⟨"a".toList, .u16, .one (.num 1)⟩] =
    ([⟨"a".toList, .u16, .one (.num 5)⟩], true) := rfl
  rw [h2] at h1
  have h3 := h1 0 _ (.num 65541) rfl rfl
  simp [SameVal, Same] at h3

/-- C81 fails as well for refused updates: the parameters before the wrong one have been changed, and a vector has lost
its values. -/
theorem C81_refused :
    update (fun _ => 0) (.obj [("a".toList, .num 5), ("v".toList, .arr [.num 1, .null])])
      [⟨"a".toList, .int, .one (.num 1)⟩, ⟨"v".toList, .int, .vec [.num 7, .num 8]⟩] =
    ([⟨"a".toList, .int, .one (.num 5)⟩, ⟨"v".toList, .int, .vec [.num 1]⟩], false) := rfl

/-- The values that are stored as they are. -/
def Exact : Ty → Json → Prop
  | .u16, .num i => i < 2 ^ 16
  | .str, .str s => '\x00' ∉ s
  | _, _ => True

theorem setValue_same (conv : Int → Nat) (t : Ty) (j : Json) (v : Sc) (he : Exact t j) (h : setValue conv t j = some v) :
    Same v j := by
  cases t <;> cases j <;> simp only [setValue, inRange] at h <;>
    first
      | (cases h; done)
      | (split at h
         · simp only [Option.some.injEq] at h
           subst h
           first
             | rfl
             | (rename_i i hi
                simp only [Exact] at he
                simp only [Same]
                exact Int.emod_eq_of_lt hi.1 he)
         · cases h)
      | (simp only [Option.some.injEq] at h
         subst h
         first
           | exact cstr_id _ he
           | rfl
           | trivial)

theorem pushAll_same (conv : Int → Nat) (t : Ty) (js : List Json) (he : ∀ j ∈ js, Exact t j)
    (h : (pushAll conv t js).2 = true) : (pushAll conv t js).1.length = js.length ∧
      ∀ (i : Nat) (v : Sc) (j : Json), (pushAll conv t js).1[i]? = some v → js[i]? = some j → Same v j := by
  induction js with
  | nil => exact ⟨rfl, fun i v j h => by simp [pushAll] at h⟩
  | cons j js ih =>
    simp only [pushAll] at h ⊢
    cases hs : setValue conv t j with
    | none => rw [hs] at h; cases h
    | some w =>
      rw [hs] at h
      simp only at h ⊢
      obtain ⟨h1, h2⟩ := ih (fun x hx => he x (List.mem_cons_of_mem _ hx)) h
      refine ⟨by simp [h1], fun i v x hv hx => ?_⟩
      cases i with
      | zero =>
        simp only [List.getElem?_cons_zero, Option.some.injEq] at hv hx
        subst hv hx
        exact setValue_same conv t _ _ (he _ (by simp)) hs
      | succ i =>
        simp only [List.getElem?_cons_succ] at hv hx
        exact h2 i v x hv hx

/-- C81, for updates that succeed, without numbers that are cut and strings with NUL. -/
theorem C81_partial (conv : Int → Nat) (doc : Json) (bs : List Binding) (hok : (update conv doc bs).2 = true)
    (he : ∀ b ∈ bs, ∀ j, get (tokens (pointerPath b.path)) doc = some j →
      match b.val with
      | .one _ => Exact b.ty j
      | .vec _ => ∀ js, j = .arr js → ∀ x ∈ js, Exact b.ty x) :
    ∀ (i : Nat) (b : Binding) (j : Json), (update conv doc bs).1[i]? = some b → get (tokens (pointerPath b.path)) doc = some j → SameVal b.val j := by
  induction bs with
  | nil => intro i b j h; simp [update] at h
  | cons c bs ih =>
    intro i b j hi hj
    simp only [update] at hok hi
    split at hok
    · rename_i h1
      rw [if_pos h1] at hi
      cases i with
      | succ i =>
        simp only [List.getElem?_cons_succ] at hi
        exact ih hok (fun x hx => he x (List.mem_cons_of_mem _ hx)) i b j hi hj
      | zero =>
        simp only [List.getElem?_cons_zero, Option.some.injEq] at hi
        subst hi
        have hpath : (updateOne conv doc c).1.path = c.path := by
          simp only [updateOne]; split <;> rfl
        rw [hpath] at hj
        have hc := he c (by simp) j hj
        simp only [updateOne, hj] at h1 ⊢
        cases hv : c.val with
        | one v =>
          rw [hv] at hc h1
          simp only [setVal] at h1 ⊢
          cases hs : setValue conv c.ty j with
          | none => rw [hs] at h1; cases h1
          | some w => exact setValue_same conv c.ty j w hc hs
        | vec l =>
          rw [hv] at hc h1
          cases j with
          | arr js => exact pushAll_same conv c.ty js (hc js rfl) h1
          | _ => simp [setVal] at h1
    · cases hok

example : update (fun _ => 0) (.obj [("a".toList, .obj [("b".toList, .num 5)]), ("v".toList, .arr [.num 65535])])
    (exBs 1 "z" []) = (exBs 5 "z" [.num 65535], true) := rfl

end Verif.Params
