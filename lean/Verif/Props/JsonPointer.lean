import Verif.Model.JsonPointer

/-
C152: JSON pointers are those of RFC 6901: every list of names has exactly one text, the text is parsed to the names, other texts are refused, and
the value that is found is the one that the names lead to.
-/
namespace Verif.JsonPointer
open Verif.Ipc Verif.Params

namespace Spec

/-- RFC 6901, section 3: how a name is written. -/
def escape : Str → Str
  | [] => []
  | c :: s => (if c = '~' then ['~', '0'] else if c = '/' then ['~', '1'] else [c]) ++ escape s

/-- RFC 6901, section 3: the pointer for a list of names. -/
def text : List Str → Str
  | [] => []
  | n :: ns => '/' :: (escape n ++ text ns)

def Digit (c : Char) : Prop := 48 ≤ c.toNat ∧ c.toNat ≤ 57

instance (c : Char) : Decidable (Digit c) := inferInstanceAs (Decidable (_ ∧ _))

/-- The value of a decimal numeral. -/
def value (s : Str) : Nat := s.foldl (fun n c => 10 * n + (c.toNat - 48)) 0

/-- RFC 6901, section 4: which names are indices of arrays. -/
def IsIndex (n : Str) : Prop := n ≠ [] ∧ (∀ c ∈ n, Digit c) ∧ (n = ['0'] ∨ n.head? ≠ some '0')

instance (n : Str) : Decidable (IsIndex n) := inferInstanceAs (Decidable (_ ∧ _ ∧ _))

/-- RFC 6901, section 4: the value that the names lead to. -/
def resolve : List Str → Json → Option Json
  | [], j => some j
  | n :: ns, .obj l => (l.find? (fun m => m.1 = n)).bind fun m => resolve ns m.2
  | n :: ns, .arr l => if IsIndex n then l[value n]?.bind (resolve ns) else none
  | _ :: _, _ => none

/-- Arrays of less than 2^28 elements, which take four gigabytes. -/
inductive Small : Json → Prop
  | null : Small .null
  | bool (b) : Small (.bool b)
  | num (i) : Small (.num i)
  | dbl (d) : Small (.dbl d)
  | str (s) : Small (.str s)
  | arr (l : List Json) : l.length < 2 ^ 28 → (∀ j ∈ l, Small j) → Small (.arr l)
  | obj (l : List (Str × Json)) : (∀ m ∈ l, Small m.2) → Small (.obj l)

end Spec

open Spec

/-! ### Parsing -/

/-- What may follow a name. -/
def Ends (s : Str) : Prop := s = [] ∨ s.head? = some '/'

theorem text_ends (ns : List Str) : Ends (text ns) := by
  cases ns with
  | nil => exact Or.inl rfl
  | cons n ns => exact Or.inr rfl

theorem scan_slash (s : Str) : scan ('/' :: s) = some ([], '/' :: s) := by
  rw [scan.eq_def]; simp

theorem scan_tilde0 (s : Str) : scan ('~' :: '0' :: s) = (scan s).map fun r => ('~' :: r.1, r.2) := by
  rw [scan.eq_def]; simp

theorem scan_tilde1 (s : Str) : scan ('~' :: '1' :: s) = (scan s).map fun r => ('/' :: r.1, r.2) := by
  rw [scan.eq_def]; simp

theorem scan_plain (c : Char) (s : Str) (h1 : c ≠ '~') (h2 : c ≠ '/') : scan (c :: s) = (scan s).map fun r => (c :: r.1, r.2) := by
  rw [scan.eq_def]; simp [h1, h2]

theorem scan_escape (n r : Str) (h : Ends r) : scan (escape n ++ r) = some (n, r) := by
  induction n with
  | nil =>
    rcases h with rfl | h
    · simp [escape, scan]
    · cases r with
      | nil => simp at h
      | cons c r =>
        simp only [List.head?_cons, Option.some.injEq] at h
        subst h
        exact scan_slash r
  | cons c n ih =>
    simp only [escape]
    by_cases h1 : c = '~'
    · subst h1
      rw [if_pos rfl]
      simp only [List.cons_append, List.nil_append]
      rw [scan_tilde0, ih]
      rfl
    · by_cases h2 : c = '/'
      · subst h2
        rw [if_neg (by decide), if_pos rfl]
        simp only [List.cons_append, List.nil_append]
        rw [scan_tilde1, ih]
        rfl
      · rw [if_neg h1, if_neg h2]
        simp only [List.cons_append, List.nil_append]
        rw [scan_plain c _ h1 h2, ih]
        rfl

theorem scan_sound (s n r : Str) (h : scan s = some (n, r)) : s = escape n ++ r ∧ Ends r := by
  induction hk : s.length using Nat.strongRecOn generalizing s n r with
  | _ k ih =>
  cases s with
  | nil =>
    simp only [scan, Option.some.injEq, Prod.mk.injEq] at h
    rw [← h.1, ← h.2]; exact ⟨rfl, Or.inl rfl⟩
  | cons c s =>
    rw [scan.eq_def] at h
    dsimp only at h
    by_cases h1 : c = '/'
    · rw [if_pos h1] at h
      simp only [Option.some.injEq, Prod.mk.injEq] at h
      rw [← h.1, ← h.2]; exact ⟨rfl, Or.inr (by simp [h1])⟩
    rw [if_neg h1] at h
    by_cases h2 : c = '~'
    · rw [if_pos h2] at h
      cases s with
      | nil => simp at h
      | cons d s =>
        dsimp only at h
        by_cases h3 : d = '0'
        · rw [if_pos h3] at h
          cases hs : scan s with
          | none => rw [hs] at h; simp at h
          | some q =>
            rw [hs] at h
            simp only [Option.map_some, Option.some.injEq, Prod.mk.injEq] at h
            obtain ⟨e, hr⟩ := ih s.length (by simp at hk; omega) s q.1 q.2 hs rfl
            rw [← h.1, ← h.2]
            refine ⟨?_, hr⟩
            simp only [escape, if_pos, h2, h3, List.cons_append, List.nil_append]
            rw [← e]
        · rw [if_neg h3] at h
          by_cases h4 : d = '1'
          · rw [if_pos h4] at h
            cases hs : scan s with
            | none => rw [hs] at h; simp at h
            | some q =>
              rw [hs] at h
              simp only [Option.map_some, Option.some.injEq, Prod.mk.injEq] at h
              obtain ⟨e, hr⟩ := ih s.length (by simp at hk; omega) s q.1 q.2 hs rfl
              rw [← h.1, ← h.2]
              refine ⟨?_, hr⟩
              simp only [escape, h2, h4]
              rw [if_neg (by decide)]
              simp only [if_pos, List.cons_append, List.nil_append]
              rw [← e]
          · rw [if_neg h4] at h; simp at h
    · rw [if_neg h2] at h
      cases hs : scan s with
      | none => rw [hs] at h; simp at h
      | some q =>
        rw [hs] at h
        simp only [Option.map_some, Option.some.injEq, Prod.mk.injEq] at h
        obtain ⟨e, hr⟩ := ih s.length (by simp at hk; omega) s q.1 q.2 hs rfl
        rw [← h.1, ← h.2]
        refine ⟨?_, hr⟩
        simp only [escape, if_neg h1, if_neg h2, List.cons_append, List.nil_append]
        rw [← e]

/-- The token for a name. -/
def tok (n : Str) : Token := ⟨n, toIndex n⟩

theorem loop_text (ns : List Str) (k : Nat) (hk : (text ns).length ≤ k) : parseLoop k (text ns) = some (ns.map tok) := by
  induction ns generalizing k with
  | nil => simp [text, parseLoop]
  | cons n ns ih =>
    simp only [text] at hk ⊢
    cases k with
    | zero => simp at hk
    | succ k =>
      simp only [parseLoop]
      rw [scan_escape n _ (text_ends ns)]
      simp only
      rw [ih k (by rw [List.length_cons, List.length_append] at hk; omega)]
      rfl

theorem loop_sound (k : Nat) (s : Str) (ts : List Token) (he : Ends s) (h : parseLoop k s = some ts) :
    s = text (ts.map (·.name)) ∧ ∀ t ∈ ts, t = tok t.name := by
  induction k generalizing s ts with
  | zero =>
    cases s with
    | nil => simp only [parseLoop, Option.some.injEq] at h; subst h; exact ⟨rfl, by simp⟩
    | cons c s => simp [parseLoop] at h
  | succ k ih =>
    cases s with
    | nil => simp only [parseLoop, Option.some.injEq] at h; subst h; exact ⟨rfl, by simp⟩
    | cons c s =>
      simp only [parseLoop] at h
      cases hs : scan s with
      | none => rw [hs] at h; simp at h
      | some q =>
        rw [hs] at h
        dsimp only at h
        cases hl : parseLoop k q.2 with
        | none => rw [hl] at h; simp at h
        | some us =>
          rw [hl] at h
          simp only [Option.map_some, Option.some.injEq] at h
          subst h
          obtain ⟨e, hr⟩ := scan_sound s q.1 q.2 hs
          obtain ⟨e2, h2⟩ := ih q.2 us hr hl
          have hc : c = '/' := by
            rcases he with h | h
            · simp at h
            · simpa using h
          refine ⟨?_, ?_⟩
          · simp only [List.map_cons, text]
            rw [hc, ← e2, ← e]
          · intro t ht
            rcases List.mem_cons.mp ht with rfl | ht
            · rfl
            · exact h2 t ht

theorem parse_text (ns : List Str) : parse (text ns) = some (ns.map tok) := by
  cases ns with
  | nil => rfl
  | cons n ns =>
    have := loop_text (n :: ns) _ (Nat.le_refl _)
    simp only [text] at this
    simp only [text, parse, if_pos]
    exact this

theorem parse_sound (s : Str) (ts : List Token) (h : parse s = some ts) : s = text (ts.map (·.name)) ∧ ∀ t ∈ ts, t = tok t.name := by
  cases s with
  | nil => simp only [parse, Option.some.injEq] at h; subst h; exact ⟨rfl, by simp⟩
  | cons c s =>
    simp only [parse] at h
    by_cases hc : c = '/'
    · rw [if_pos hc] at h
      exact loop_sound _ _ _ (Or.inr (by simp [hc])) h
    · rw [if_neg hc] at h; simp at h

/-! ### Indices -/

theorem char_le (a b : Char) : (a ≤ b) = (a.toNat ≤ b.toNat) := rfl

theorem isNumber_iff (n : Str) : isNumber n = true ↔ IsIndex n := by
  have hd : ∀ c : Char, ('0' ≤ c ∧ c ≤ '9') ↔ Digit c := fun c => Iff.rfl
  simp only [isNumber, Bool.and_eq_true, List.all_eq_true, decide_eq_true_eq, bne_iff_ne, Bool.not_eq_true', Bool.and_eq_false_iff,
    decide_eq_false_iff_not, beq_eq_false_iff_ne, IsIndex, hd]
  cases n with
  | nil => simp
  | cons c n =>
    cases n with
    | nil =>
      by_cases h : c = '0' <;> simp [h]
    | cons d n =>
      simp

theorem fold_ge (s : Str) (a : Nat) : a ≤ s.foldl (fun n c => 10 * n + (c.toNat - 48)) a := by
  induction s generalizing a with
  | nil => exact Nat.le_refl _
  | cons c s ih => exact Nat.le_trans (by dsimp only; omega) (ih _)

/-- Either the index is exact, or it is large, and so is the value. -/
theorem convert_ok (s : Str) (n a : Nat) (h : n = a ∨ 2 ^ 28 ≤ n ∧ 2 ^ 28 ≤ a) (hd : ∀ c ∈ s, Digit c) :
    ((convert n s).2 = true → (convert n s).1 = s.foldl (fun n c => 10 * n + (c.toNat - 48)) a ∨
      2 ^ 28 ≤ (convert n s).1 ∧ 2 ^ 28 ≤ s.foldl (fun n c => 10 * n + (c.toNat - 48)) a) ∧
    ((convert n s).2 = false → 2 ^ 28 ≤ s.foldl (fun n c => 10 * n + (c.toNat - 48)) a) := by
  induction s generalizing n a with
  | nil => simp only [convert, List.foldl_nil]; exact ⟨fun _ => h, by simp⟩
  | cons c s ih =>
    have hc := hd c (by simp)
    simp only [Digit] at hc
    simp only [convert, List.foldl_cons]
    by_cases hlt : (n * 10 + (c.toNat - 48)) % 2 ^ 32 < n
    · rw [if_pos hlt]
      refine ⟨by simp, fun _ => Nat.le_trans ?_ (fold_ge s _)⟩
      omega
    · rw [if_neg hlt]
      exact ih _ _ (by omega) (fun x hx => hd x (by simp [hx]))

theorem toIndex_none (n : Str) (h : ¬ IsIndex n) : toIndex n = invalid := by
  simp only [toIndex]
  rw [if_neg (by rw [isNumber_iff]; exact h)]

theorem toIndex_some (n : Str) (h : IsIndex n) : toIndex n = value n ∨ 2 ^ 28 ≤ toIndex n ∧ 2 ^ 28 ≤ value n := by
  simp only [toIndex]
  rw [if_pos ((isNumber_iff n).mpr h)]
  have := convert_ok n 0 0 (Or.inl rfl) h.2.1
  simp only [value]
  cases hc : (convert 0 n).2 with
  | true => rw [if_pos rfl]; exact this.1 hc
  | false =>
    rw [if_neg (by simp)]
    exact Or.inr ⟨by decide, this.2 hc⟩

/-! ### Finding -/

theorem findM_find (l : List (Str × Json)) (n : Str) : findM l n = (l.find? (fun m => m.1 = n)).map (·.2) := by
  induction l with
  | nil => rfl
  | cons m l ih =>
    simp only [findM, List.find?_cons]
    by_cases h : m.1 = n <;> simp [h, ih]

theorem find_mem (l : List (Str × Json)) (n : Str) (j : Json) (h : findM l n = some j) : ∃ m ∈ l, m.2 = j := by
  rw [findM_find] at h
  cases hf : l.find? (fun m => m.1 = n) with
  | none => rw [hf] at h; simp at h
  | some m =>
    rw [hf] at h
    simp only [Option.map_some, Option.some.injEq] at h
    exact ⟨m, List.mem_of_find?_eq_some hf, h⟩

theorem find_obj (ns : List Str) (n : Str) (l : List (Str × Json)) :
    find ((n :: ns).map tok) (.obj l) = (findM l n).bind (find (ns.map tok)) := rfl

theorem find_arr (ns : List Str) (n : Str) (l : List Json) : find ((n :: ns).map tok) (.arr l) =
    if toIndex n = invalid ∨ toIndex n ≥ l.length then none else l[toIndex n]?.bind (find (ns.map tok)) := rfl

theorem resolve_obj (ns : List Str) (n : Str) (l : List (Str × Json)) : resolve (n :: ns) (.obj l) = (findM l n).bind (resolve ns) := by
  rw [findM_find, resolve]
  cases l.find? (fun m => m.1 = n) <;> rfl

theorem find_resolve (ns : List Str) (j : Json) (h : Small j) : find (ns.map tok) j = resolve ns j := by
  induction ns generalizing j with
  | nil => simp [find, resolve]
  | cons n ns ih =>
    cases h with
    | null => rfl
    | bool b => rfl
    | num i => rfl
    | dbl d => rfl
    | str s => rfl
    | obj l hl =>
      rw [find_obj, resolve_obj]
      cases hf : findM l n with
      | none => rfl
      | some x =>
        obtain ⟨m, hm, rfl⟩ := find_mem l n x hf
        exact ih _ (hl m hm)
    | arr l hlen hl =>
      rw [find_arr]
      simp only [resolve]
      have hget : ∀ i : Nat, l[i]?.bind (find (ns.map tok)) = l[i]?.bind (resolve ns) := by
        intro i
        cases hi : l[i]? with
        | none => rfl
        | some x => exact ih x (hl x (List.mem_of_getElem? hi))
      by_cases hx : IsIndex n
      · rw [if_pos hx]
        rcases toIndex_some n hx with e | ⟨h1, h2⟩
        · by_cases hb : toIndex n = invalid ∨ toIndex n ≥ l.length
          · rw [if_pos hb]
            have : l.length ≤ value n := by
              simp only [invalid] at hb
              omega
            rw [List.getElem?_eq_none this]; rfl
          · rw [if_neg hb, e]; exact hget _
        · rw [if_pos (by omega), List.getElem?_eq_none (by omega)]; rfl
      · rw [if_neg hx]
        rw [if_pos (Or.inl (toIndex_none n hx))]

/-- The bytes of the names with their terminators, which `Parse` writes behind the tokens, pointer.h:817-818 and 921. -/
def nameBytes (ts : List Token) : Nat := (ts.map fun t => t.name.length + 1).sum

theorem escape_length (n : Str) : n.length ≤ (escape n).length := by
  induction n with
  | nil => simp [escape]
  | cons c n ih =>
    simp only [escape, List.length_append, List.length_cons]
    by_cases h1 : c = '~'
    · rw [if_pos h1]; simp; omega
    · by_cases h2 : c = '/'
      · rw [if_neg h1, if_pos h2]; simp; omega
      · rw [if_neg h1, if_neg h2]; simp; omega

theorem names_fit (ts : List Token) : nameBytes ts ≤ (text (ts.map (·.name))).length := by
  induction ts with
  | nil => simp [nameBytes]
  | cons t ts ih =>
    simp only [nameBytes, List.map_cons, List.sum_cons, text, List.length_cons, List.length_append] at *
    have := escape_length t.name
    omega

/-- C152. Every list of names has a text, which is parsed to the names; nothing else is accepted; the names fit into the memory for them; and the value that is found is the
one that the names lead to. -/
theorem C152 :
    (∀ names : List Str, ∃ ts, parse (text names) = some ts ∧ ts.map (·.name) = names) ∧
    (∀ s ts, parse s = some ts → s = text (ts.map (·.name)) ∧ nameBytes ts ≤ s.length ∧
      ∀ doc, Small doc → find ts doc = resolve (ts.map (·.name)) doc) := by
  refine ⟨fun names => ⟨_, parse_text names, ?_⟩, fun s ts h => ?_⟩
  · rw [List.map_map]
    have : ((fun t : Token => t.name) ∘ tok) = id := rfl
    rw [this, List.map_id]
  · obtain ⟨h1, h2⟩ := parse_sound s ts h
    refine ⟨h1, by rw [h1]; exact names_fit ts, fun doc hd => ?_⟩
    rw [← find_resolve _ _ hd, List.map_map]
    congr 1
    symm
    calc ts.map (tok ∘ fun t => t.name) = ts.map id := List.map_congr_left fun t ht => (h2 t ht).symm
      _ = ts := List.map_id ts

/-- Non-vacuity: an escaped name, an index, and a text that is refused. -/
example : parse "/a~1b/~0/10/01".toList = some [⟨"a/b".toList, invalid⟩, ⟨"~".toList, invalid⟩, ⟨"10".toList, 10⟩, ⟨"01".toList, invalid⟩] ∧
    parse "/a~2".toList = none ∧ text ["a/b".toList, "~".toList] = "/a~1b/~0".toList := by decide +kernel

/-- The first index that is wrong: the test for an overflow at pointer.h:909 does not notice it, and an array of more than 2^31 elements has a value where there is none. -/
theorem C152_large : parse "/6442450944".toList = some [⟨"6442450944".toList, 2 ^ 31⟩] ∧
    ∃ doc, find [⟨"6442450944".toList, 2 ^ 31⟩] doc ≠ resolve ["6442450944".toList] doc := by
  refine ⟨by decide +kernel, .arr (List.replicate (2 ^ 31 + 1) .null), ?_⟩
  generalize hl : List.replicate (2 ^ 31 + 1) Json.null = l
  have hlen : l.length = 2 ^ 31 + 1 := by rw [← hl, List.length_replicate]
  have h1 : l[2 ^ 31]? = some .null := by
    rw [← hl, List.getElem?_replicate, if_pos (by decide)]
  have h2 : l[value "6442450944".toList]? = none := by
    apply List.getElem?_eq_none
    rw [hlen]; decide +kernel
  simp only [find, resolve]
  rw [if_neg (by rw [hlen]; decide), if_pos (by decide +kernel), h1, h2]
  simp

end Verif.JsonPointer
