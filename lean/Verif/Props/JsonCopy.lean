import Verif.Model.JsonCopy

/-
C158: a deep copy has the content of the original; and what is taken from a message or a parameter container does not refer to it.
-/
namespace Verif.JsonCopy

namespace Spec

/-- Content without memory. -/
inductive Content where
  | null
  | bool (b : Bool)
  | num (i : Int)
  | dbl (d : Nat)
  | str (s : Str)
  | arr (l : List Content)
  | obj (l : List (Content × Content))

mutual
def content : Val → Content
  | .null => .null
  | .bool b => .bool b
  | .num i => .num i
  | .dbl d => .dbl d
  | .str _ _ s => .str s
  | .arr _ l => .arr (contentL l)
  | .obj _ l => .obj (contentM l)

def contentL : List Val → List Content
  | [] => []
  | v :: l => content v :: contentL l

def contentM : List (Val × Val) → List (Content × Content)
  | [] => []
  | (k, v) :: l => (content k, content v) :: contentM l
end

mutual
/-- All memory that a value refers to. An array or object without elements has none. -/
def owners : Val → List Owner
  | .str _ o _ => [o]
  | .arr o l => (if l.isEmpty then [] else [o]) ++ ownersL l
  | .obj o l => (if l.isEmpty then [] else [o]) ++ ownersM l
  | _ => []

def ownersL : List Val → List Owner
  | [] => []
  | v :: l => owners v ++ ownersL l

def ownersM : List (Val × Val) → List Owner
  | [] => []
  | (k, v) :: l => owners k ++ (owners v ++ ownersM l)
end

mutual
/-- The memory of strings that are not copied. -/
def uncopied : Val → List Owner
  | .str false o _ => [o]
  | .arr _ l => uncopiedL l
  | .obj _ l => uncopiedM l
  | _ => []

def uncopiedL : List Val → List Owner
  | [] => []
  | v :: l => uncopied v ++ uncopiedL l

def uncopiedM : List (Val × Val) → List Owner
  | [] => []
  | (k, v) :: l => uncopied k ++ (uncopied v ++ uncopiedM l)
end

/-- The member with a name, and what a path leads to. -/
def member (n : Str) : List (Content × Content) → Option Content
  | [] => none
  | (.str s, v) :: l => if s = n then some v else member n l
  | _ :: l => member n l

def memberOf (n : Str) : Content → Option Content
  | .obj l => member n l
  | _ => none

def atPath (c : Content) : List Str → Option Content
  | [] => some c
  | n :: l => (memberOf n c).bind (fun c => atPath c l)

/-- The value needs nothing but the pool and the program text. -/
def SelfContained (p : Nat) (v : Val) : Prop := ∀ o ∈ owners v, o = .pool p ∨ o = .static

end Spec

open Spec

/-! ### Deep copies -/

mutual
/-- What the handlers build. -/
def copied (p : Nat) : Val → Val
  | .str c o s => string p c o s
  | .arr _ l => .arr (.pool p) (copiedL p l)
  | .obj _ l => .obj (.pool p) (copiedM p l)
  | .null => .null
  | .bool b => .bool b
  | .num i => .num i
  | .dbl d => .dbl d

def copiedL (p : Nat) : List Val → List Val
  | [] => []
  | v :: l => copied p v :: copiedL p l

def copiedM (p : Nat) : List (Val × Val) → List (Val × Val)
  | [] => []
  | (k, v) :: l => (copied p k, copied p v) :: copiedM p l
end

/-- Members one after the other. -/
def flat : List (Val × Val) → List Val
  | [] => []
  | (k, v) :: l => k :: v :: flat l

theorem pairs_flat (l : List (Val × Val)) : pairs (flat l) = l := by
  induction l with
  | nil => rfl
  | cons x l ih => obtain ⟨k, v⟩ := x; simp [flat, pairs, ih]

theorem flat_length (l : List (Val × Val)) : (flat l).length = 2 * l.length := by
  induction l with
  | nil => rfl
  | cons x l ih => obtain ⟨k, v⟩ := x; simp [flat, ih]; omega

theorem copiedL_length (p : Nat) (l : List Val) : (copiedL p l).length = l.length := by
  induction l with
  | nil => rfl
  | cons x l ih => simp [copiedL, ih]

theorem copiedM_length (p : Nat) (l : List (Val × Val)) : (copiedM p l).length = l.length := by
  induction l with
  | nil => rfl
  | cons x l ih => obtain ⟨k, v⟩ := x; simp [copiedM, ih]

theorem handleAll_append (p : Nat) (a b : List Ev) (st : List Val) : handleAll p st (a ++ b) = (handleAll p st a).bind (fun st => handleAll p st b) := by
  induction a generalizing st with
  | nil => rfl
  | cons e a ih =>
    simp only [List.cons_append, handleAll]
    cases handle p st e with
    | none => rfl
    | some st' => exact ih st'

theorem endArr_ok (p : Nat) (l : List Val) (o : Owner) (x : List Val) (st : List Val) :
    endArr p l.length (l.reverse ++ .arr o x :: st) = some (.arr (.pool p) l :: st) := by
  have h : l.length = l.reverse.length := by simp
  simp only [endArr]
  rw [h, List.drop_left, List.take_left]
  simp

theorem endObj_ok (p : Nat) (l : List (Val × Val)) (o : Owner) (x : List (Val × Val)) (st : List Val) :
    endObj p l.length ((flat l).reverse ++ .obj o x :: st) = some (.obj (.pool p) l :: st) := by
  have h : 2 * l.length = (flat l).reverse.length := by simp [flat_length]
  simp only [endObj]
  rw [h, List.drop_left, List.take_left]
  simp [pairs_flat]

mutual
theorem build (p : Nat) (v : Val) (st : List Val) : handleAll p st (accept v) = some (copied p v :: st) := by
  match v with
  | .null => rfl
  | .bool _ => rfl
  | .num _ => rfl
  | .dbl _ => rfl
  | .str _ _ _ => rfl
  | .arr o l =>
    simp only [accept, handleAll, handle, Option.bind_some]
    rw [handleAll_append, buildL p l]
    simp only [Option.bind_some, handleAll, handle]
    have := endArr_ok p (copiedL p l) (.pool p) [] st
    rw [copiedL_length] at this
    rw [this]
    rfl
  | .obj o l =>
    simp only [accept, handleAll, handle, Option.bind_some]
    rw [handleAll_append, buildM p l]
    simp only [Option.bind_some, handleAll, handle]
    have := endObj_ok p (copiedM p l) (.pool p) [] st
    rw [copiedM_length] at this
    rw [this]
    rfl

theorem buildL (p : Nat) (l : List Val) (st : List Val) : handleAll p st (acceptL l) = some ((copiedL p l).reverse ++ st) := by
  match l with
  | [] => rfl
  | v :: l =>
    simp only [acceptL, copiedL]
    rw [handleAll_append, build p v st, Option.bind_some, buildL p l]
    simp

theorem buildM (p : Nat) (l : List (Val × Val)) (st : List Val) : handleAll p st (acceptM l) = some ((flat (copiedM p l)).reverse ++ st) := by
  match l with
  | [] => rfl
  | (k, v) :: l =>
    simp only [acceptM, copiedM, flat]
    rw [handleAll_append, build p k st, Option.bind_some, handleAll_append, build p v _, Option.bind_some, buildM p l]
    simp
end

mutual
theorem copied_content (p : Nat) (v : Val) : content (copied p v) = content v := by
  match v with
  | .null => rfl
  | .bool _ => rfl
  | .num _ => rfl
  | .dbl _ => rfl
  | .str c _ _ => cases c <;> rfl
  | .arr o l => simp only [copied, content]; rw [copied_contentL p l]
  | .obj o l => simp only [copied, content]; rw [copied_contentM p l]

theorem copied_contentL (p : Nat) (l : List Val) : contentL (copiedL p l) = contentL l := by
  match l with
  | [] => rfl
  | v :: l => simp only [copiedL, contentL]; rw [copied_content p v, copied_contentL p l]

theorem copied_contentM (p : Nat) (l : List (Val × Val)) : contentM (copiedM p l) = contentM l := by
  match l with
  | [] => rfl
  | (k, v) :: l => simp only [copiedM, contentM]; rw [copied_content p k, copied_content p v, copied_contentM p l]
end

theorem own_mem {o o' : Owner} {b : Bool} (h : o ∈ (if b then [] else [o'])) : o = o' := by
  cases b <;> simp_all

mutual
theorem copied_owners (p : Nat) (v : Val) (o : Owner) (h : o ∈ owners (copied p v)) : o = .pool p ∨ o ∈ uncopied v := by
  match v with
  | .null => simp [copied, owners] at h
  | .bool _ => simp [copied, owners] at h
  | .num _ => simp [copied, owners] at h
  | .dbl _ => simp [copied, owners] at h
  | .str c _ _ => cases c <;> simp_all [copied, string, owners, uncopied]
  | .arr _ l =>
    simp only [copied, owners, List.mem_append] at h
    rcases h with h | h
    · exact Or.inl (own_mem h)
    · exact copied_ownersL p l o h
  | .obj _ l =>
    simp only [copied, owners, List.mem_append] at h
    rcases h with h | h
    · exact Or.inl (own_mem h)
    · exact copied_ownersM p l o h

theorem copied_ownersL (p : Nat) (l : List Val) (o : Owner) (h : o ∈ ownersL (copiedL p l)) : o = .pool p ∨ o ∈ uncopiedL l := by
  match l with
  | [] => simp [copiedL, ownersL] at h
  | v :: l =>
    simp only [copiedL, ownersL, List.mem_append] at h
    simp only [uncopiedL, List.mem_append]
    rcases h with h | h
    · rcases copied_owners p v o h with h | h
      · exact Or.inl h
      · exact Or.inr (Or.inl h)
    · rcases copied_ownersL p l o h with h | h
      · exact Or.inl h
      · exact Or.inr (Or.inr h)

theorem copied_ownersM (p : Nat) (l : List (Val × Val)) (o : Owner) (h : o ∈ ownersM (copiedM p l)) : o = .pool p ∨ o ∈ uncopiedM l := by
  match l with
  | [] => simp [copiedM, ownersM] at h
  | (k, v) :: l =>
    simp only [copiedM, ownersM, List.mem_append] at h
    simp only [uncopiedM, List.mem_append]
    rcases h with h | h | h
    · rcases copied_owners p k o h with h | h
      · exact Or.inl h
      · exact Or.inr (Or.inl h)
    · rcases copied_owners p v o h with h | h
      · exact Or.inl h
      · exact Or.inr (Or.inr (Or.inl h))
    · rcases copied_ownersM p l o h with h | h
      · exact Or.inl h
      · exact Or.inr (Or.inr (Or.inr h))
end

theorem copyFrom_eq (p : Nat) (v : Val) : copyFrom p v = some (copied p v) := by
  cases v with
  | arr o l => simp only [copyFrom]; rw [build]; rfl
  | obj o l => simp only [copyFrom]; rw [build]; rfl
  | str c o s => rfl
  | null => rfl
  | bool b => rfl
  | num i => rfl
  | dbl d => rfl

/-- C158 for deep copies, of any depth and size: the stack of the handlers never runs out, the copy has the content of the original, and it refers to
its own allocator and to strings that were not copied before, and to nothing else. -/
theorem C158_copy (p : Nat) (v : Val) : ∃ w, copyFrom p v = some w ∧ content w = content v ∧ ∀ o ∈ owners w, o = .pool p ∨ o ∈ uncopied v :=
  ⟨copied p v, copyFrom_eq p v, copied_content p v, fun o h => copied_owners p v o h⟩

/-! ### Containers and messages -/

/-- The content of a parameter. -/
def paramContent : Param → Content
  | .num i => .num i
  | .dbl d => .dbl d
  | .bool b => .bool b
  | .str s => .str s
  | .doc v => content v
  | .strs l => .arr (l.map .str)
  | .nums l => .arr (l.map .num)

/-- C158: what `encode` puts into a document `d` of someone else and what `copy_params` gives to a document `d` needs only that document, has the
content it was asked for, and nothing undefined happens; and a reference that is taken from a message leads into this message. -/
def C158_statement : Prop :=
  (∀ container docPool own d q, ∃ w, encoded container docPool own q = some w ∧ content w = paramContent q ∧ SelfContained d w) ∧
  (∀ messagePool d (found : Option Val), ∃ w, copyParams messagePool found = some w ∧ (∀ v, found = some v → content w = content v) ∧ SelfContained d w) ∧
  (∀ k v path j w, getRef k v path = some (j, w) → j = k)

/-- A string in an encoded document is that of the container, for every string. -/
theorem C158_string_violated (container docPool own d : Nat) (s : Str) :
    ∃ w, encoded container docPool own (.str s) = some w ∧ owners w = [.param container 0] ∧ ¬ SelfContained d w := by
  refine ⟨_, rfl, rfl, fun h => ?_⟩
  have := h (.param container 0) (by simp [owners])
  rcases this with h | h <;> cases h

/-- A vector in an encoded document is in memory of the container, for every vector with elements. -/
theorem C158_vector_violated (container docPool own d : Nat) (i : Int) (l : List Int) (hd : docPool ≠ d) :
    ∃ w, encoded container docPool own (.nums (i :: l)) = some w ∧ .pool docPool ∈ owners w ∧ ¬ SelfContained d w := by
  refine ⟨_, rfl, by simp [owners], fun h => ?_⟩
  have := h (.pool docPool) (by simp [owners])
  rcases this with h | h
  · cases h; exact hd rfl
  · cases h

/-- Parameters copied from a message are in memory of the message, for all arrays with elements, and a path that leads nowhere dereferences null. -/
theorem C158_params_violated (messagePool d : Nat) (o : Owner) (x : Val) (l : List Val) (hd : messagePool ≠ d) :
    (∃ w, copyParams messagePool (some (.arr o (x :: l))) = some w ∧ ¬ SelfContained d w) ∧ copyParams messagePool none = none := by
  refine ⟨⟨copied messagePool (.arr o (x :: l)), copyFrom_eq messagePool (.arr o (x :: l)), fun h => ?_⟩, rfl⟩
  have := h (.pool messagePool) (by simp [copied, copiedL, owners])
  rcases this with h | h
  · cases h; exact hd rfl
  · cases h

theorem find_content (n : Str) (l : List (Val × Val)) : member n (contentM l) = (find n l).map content := by
  induction l with
  | nil => rfl
  | cons x l ih =>
    obtain ⟨k, v⟩ := x
    cases k with
    | str c o s =>
      simp only [contentM, content, member, find]
      by_cases h : s = n
      · rw [if_pos h, if_pos h]; rfl
      · rw [if_neg h, if_neg h, ih]
    | null => simp only [contentM, content, member, find]; exact ih
    | bool _ => simp only [contentM, content, member, find]; exact ih
    | num _ => simp only [contentM, content, member, find]; exact ih
    | dbl _ => simp only [contentM, content, member, find]; exact ih
    | arr _ _ => simp only [contentM, content, member, find]; exact ih
    | obj _ _ => simp only [contentM, content, member, find]; exact ih

theorem findIn_content (n : Str) (v : Val) : memberOf n (content v) = (findIn n v).map content := by
  cases v with
  | obj o l => exact find_content n l
  | _ => rfl

/-- What is found for a name is what is there at that place, and it is in the message that was made last: of a name with `n` slashes, the `n`-th one. -/
theorem getRef_value (k : Nat) (v : Val) (path : List Str) (hp : path ≠ []) :
    (getRef k v path).map (fun x => (x.1, content x.2)) = (atPath (content v) path).map (fun c => (k + path.length - 1, c)) := by
  induction path generalizing k v with
  | nil => exact absurd rfl hp
  | cons n l ih =>
    cases l with
    | nil =>
      simp only [getRef, atPath, findIn_content]
      cases findIn n v <;> simp
    | cons m l =>
      simp only [getRef, atPath, findIn_content]
      cases findIn n v with
      | none => rfl
      | some w =>
        simp only [Option.bind_some, Option.map_some, copyFrom_eq]
        have := ih (k + 1) (copied (k + 1) w) (by simp)
        rw [copied_content] at this
        rw [this]
        simp only [atPath, List.length_cons]
        rw [show k + 1 + (l.length + 1) - 1 = k + (l.length + 1 + 1) - 1 by omega]

/-- A reference to a parameter with a slash in its name never leads into the message it is taken from, but into one that is gone. -/
theorem C158_reference_violated (k : Nat) (v : Val) (n m : Str) (l : List Str) (j : Nat) (w : Val) (h : getRef k v (n :: m :: l) = some (j, w)) : j ≠ k := by
  have := getRef_value k v (n :: m :: l) (by simp)
  rw [h] at this
  cases hc : atPath (content v) (n :: m :: l) with
  | none => rw [hc] at this; simp at this
  | some c =>
    rw [hc] at this
    simp only [Option.map_some, Option.some.injEq, Prod.mk.injEq, List.length_cons] at this
    omega

/-- Such a parameter. -/
example : getRef 0 (.obj (.pool 0) [(.str true (.pool 0) ['a'], .obj (.pool 0) [(.str true (.pool 0) ['b'], .num 5)])]) [['a'], ['b']] = some (1, .num 5) := rfl

theorem C158_violated : ¬ C158_statement := by
  intro h
  obtain ⟨w, hw, _, hs⟩ := h.1 0 1 2 3 (.str [])
  obtain ⟨w', hw', _, hs'⟩ := C158_string_violated 0 1 2 3 []
  rw [hw] at hw'
  cases hw'
  exact hs' hs

theorem refs_content (container k : Nat) (l : List Str) : contentL (refs container k l) = l.map .str := by
  induction l generalizing k with
  | nil => rfl
  | cons s l ih => simp [refs, contentL, content, ih]

theorem nums_content (l : List Int) : contentL (l.map .num) = l.map .num := by
  induction l with
  | nil => rfl
  | cons s l ih => simp [contentL, content, ih]

/-- Numbers and booleans. -/
def Scalar : Param → Prop
  | .num _ | .dbl _ | .bool _ => True
  | _ => False

/-- What holds: the content is right as long as the container lives; numbers and booleans need nothing; what is put into a message needs only that
message, if the value has no string that was not copied; a reference to a parameter without a slash in its name leads into the message; and what is
read of any other parameter, before the reference is gone, is what is there in the message. -/
theorem C158_partial :
    (∀ container docPool own q, ∃ w, encoded container docPool own q = some w ∧ content w = paramContent q ∧ (Scalar q → ∀ d, SelfContained d w)) ∧
    (∀ messagePool v, (∀ o ∈ uncopied v, o = .static) → ∃ w, setParam messagePool v = some w ∧ content w = content v ∧ SelfContained messagePool w) ∧
    (∀ messagePool v, (∀ o ∈ uncopied v, o = .static) → ∃ w, copyParams messagePool (some v) = some w ∧ content w = content v ∧ SelfContained messagePool w) ∧
    (∀ k v n, (getRef k v [n]).map (fun x => (x.1, content x.2)) = (memberOf n (content v)).map (fun c => (k, c))) ∧
    (∀ k v path, path ≠ [] → (getRef k v path).map (fun x => content x.2) = atPath (content v) path) := by
  refine ⟨fun container docPool own q => ?_, fun p v h => ?_, fun p v h => ?_, fun k v n => ?_, fun k v path hp => ?_⟩
  · cases q with
    | num i => exact ⟨_, rfl, rfl, fun _ d o ho => by simp [owners] at ho⟩
    | dbl i => exact ⟨_, rfl, rfl, fun _ d o ho => by simp [owners] at ho⟩
    | bool i => exact ⟨_, rfl, rfl, fun _ d o ho => by simp [owners] at ho⟩
    | str s => exact ⟨_, rfl, rfl, fun h => h.elim⟩
    | doc v => exact ⟨copied own v, copyFrom_eq own v, copied_content own v, fun h => h.elim⟩
    | strs l => exact ⟨_, rfl, by simp only [content, paramContent, refs_content], fun h => h.elim⟩
    | nums l => exact ⟨_, rfl, by simp only [content, paramContent, nums_content], fun h => h.elim⟩
  · refine ⟨copied p v, copyFrom_eq p v, copied_content p v, fun o ho => ?_⟩
    rcases copied_owners p v o ho with ho | ho
    · exact Or.inl ho
    · exact Or.inr (h o ho)
  · refine ⟨copied p v, copyFrom_eq p v, copied_content p v, fun o ho => ?_⟩
    rcases copied_owners p v o ho with ho | ho
    · exact Or.inl ho
    · exact Or.inr (h o ho)
  · have := getRef_value k v [n] (by simp)
    rw [this]
    simp only [atPath, List.length_cons, List.length_nil]
    cases memberOf n (content v) <;> simp
  · have h := getRef_value k v path hp
    have h' := congrArg (Option.map Prod.snd) h
    simp only [Option.map_map] at h'
    have e : (Prod.snd ∘ fun x : Nat × Val => (x.1, content x.2)) = fun x => content x.2 := rfl
    have e' : (Prod.snd ∘ fun c : Content => (k + path.length - 1, c)) = id := rfl
    rw [e, e', Option.map_id, id] at h'
    exact h'

/-- Non-vacuity: an object with a constant name, an array in it and a copied string. -/
example : ∀ o ∈ uncopied (.obj (.pool 1) [(.str false .static ['a'], .arr (.pool 1) [.num 1, .str true (.pool 1) ['b']])]), o = .static := by
  simp [uncopied, uncopiedL, uncopiedM]

example : copyFrom 7 (.obj (.pool 1) [(.str false .static ['a'], .arr (.pool 1) [.num 1, .str true (.pool 1) ['b']])]) =
    some (.obj (.pool 7) [(.str false .static ['a'], .arr (.pool 7) [.num 1, .str true (.pool 7) ['b']])]) := rfl

/-- Each string of a vector refers to its own element of the container. -/
theorem C158_strings (container docPool own : Nat) (l : List Str) : getValue container docPool own (.strs l) =
    some (.arr (.pool docPool) (l.zipIdx.map fun x => .str false (.param container x.2) x.1)) := by
  have : ∀ k, refs container k l = (l.zipIdx k).map fun x => .str false (.param container x.2) x.1 := by
    induction l with
    | nil => intro k; rfl
    | cons s l ih => intro k; simp [refs, ih]
  simp only [getValue, this]

end Verif.JsonCopy
