import Verif.Props.JsonPointer
import Verif.Props.ParamContainer
import Verif.Props.ReadDouble

/-
C153: parameters whose paths are not inside one another do not overwrite each other when a container is encoded, whatever the paths are; also
paths with numbers, which rapidjson takes for indices of arrays, and with escapes. The earlier model of containers (C52) has names only.
-/
namespace Verif.JsonPointer
open Verif.Ipc Verif.Params

namespace Spec

/-- Neither path is inside the other one. -/
def Apart (p q : List Str) : Prop := ¬ p <+: q ∧ ¬ q <+: p

/-- At the first place where the paths differ, one has an index and the other one a name. -/
def Mixed (p q : List Str) : Prop :=
  ∃ r a b p' q', p = r ++ a :: p' ∧ q = r ++ b :: q' ∧ a ≠ b ∧ ¬ (IsIndex a ↔ IsIndex b)

/-- No part of the path is a hyphen (the end of an array), and indices are below 2^28. -/
def Plain (p : List Str) : Prop := ∀ n ∈ p, n ≠ ['-'] ∧ (IsIndex n → value n < 2 ^ 28)

/-- The pointer to a parameter with a prefix. -/
def location (pre path : Str) : Str :=
  if pre = [] then '/' :: path
  else if pre.getLast? = some '/' then '/' :: (pre ++ path) else '/' :: (pre ++ '/' :: path)

end Spec

open Spec

theorem value_eq (s : Str) : Spec.value s = Itoa.Spec.value s := by
  simp only [Spec.value, Itoa.Spec.value, Nat.mul_comm]

theorem index_numeral (n : Str) (h : IsIndex n) : Itoa.Spec.Numeral n := by
  refine ⟨h.1, h.2.1, fun h0 => ?_⟩
  rcases h.2.2 with h | h
  · exact h
  · exact absurd h0 h

theorem value_inj (a b : Str) (ha : IsIndex a) (hb : IsIndex b) (h : Spec.value a = Spec.value b) : a = b := by
  rw [ReadDouble.numeral_dec a (index_numeral a ha), ReadDouble.numeral_dec b (index_numeral b hb), ← value_eq, ← value_eq, h]

/-- The index of a token for a small index. -/
theorem index_of (n : Str) (h : IsIndex n) (hs : Spec.value n < 2 ^ 28) : (tok n).index = Spec.value n ∧ (tok n).index ≠ invalid := by
  have e : toIndex n = Spec.value n := by
    rcases toIndex_some n h with h | h
    · exact h
    · omega
  refine ⟨e, ?_⟩
  show toIndex n ≠ invalid
  rw [e]
  simp only [invalid]
  omega

theorem index_valid (n : Str) (h : (tok n).index ≠ invalid) : IsIndex n := by
  by_cases hx : IsIndex n
  · exact hx
  · exact absurd (toIndex_none n hx) h

theorem grow_length (l : List Json) (i : Nat) : i < (grow l i).length := by
  simp only [grow, List.length_append, List.length_replicate]; omega

theorem grow_get (l : List Json) (i k : Nat) (hk : k < l.length) : (grow l i)[k]? = l[k]? := by
  simp only [grow]
  rw [List.getElem?_append_left hk]

theorem find_set (ts : List Token) (t : Token) (l : List Json) (x : Json) (hv : t.index ≠ invalid) :
    find (t :: ts) (.arr ((grow l t.index).set t.index x)) = find ts x := by
  have hl := grow_length l t.index
  simp only [find]
  rw [if_neg (by rw [List.length_set]; omega), List.getElem?_set_self hl]
  rfl

/-- What was put is found. -/
theorem put_find (v : Json) (p : List Str) (j : Json) (hp : Plain p) : find (p.map tok) (put v (p.map tok) j) = some v := by
  induction p generalizing j with
  | nil => simp [find, put]
  | cons n p ih =>
    have hn := hp n (by simp)
    have ih := fun j => ih j (fun x hx => hp x (by simp [hx]))
    have hname : ∀ x, find (tok n :: p.map tok) (.obj [((tok n).name, put v (p.map tok) x)]) = some v := by
      intro x
      simp only [find, findM, if_pos, Option.bind_some]
      exact ih x
    have hne : (tok n).name ≠ ['-'] := hn.1
    have hother : find (tok n :: p.map tok) (if (tok n).index = invalid then .obj [((tok n).name, put v (p.map tok) .null)]
        else .arr ((grow [] (tok n).index).set (tok n).index (put v (p.map tok) .null))) = some v := by
      by_cases hi : (tok n).index = invalid
      · rw [if_pos hi]; exact hname _
      · rw [if_neg hi, find_set _ _ _ _ hi]; exact ih _
    rw [List.map_cons]
    cases j with
    | null => exact hother
    | bool b => exact hother
    | num i => exact hother
    | dbl d => exact hother
    | str s => exact hother
    | arr l =>
      rw [put, if_neg hne]
      by_cases hi : (tok n).index = invalid
      · rw [if_pos hi]; exact hname _
      · rw [if_neg hi, find_set _ _ _ _ hi]; exact ih _
    | obj l =>
      simp only [put]
      cases hf : findM l (tok n).name with
      | some x =>
        simp only [find]
        rw [findM_setM_same l _ _ (by rw [hf]; simp)]
        exact ih x
      | none =>
        simp only [find]
        rw [findM_append l _ _ _ hf, if_pos rfl]
        exact ih .null

theorem apart_cons (n : Str) (p q : List Str) (h : Apart (n :: p) (n :: q)) : Apart p q := by
  simp only [Apart, List.cons_prefix_cons, true_and] at *
  exact h

theorem mixed_cons (n : Str) (p q : List Str) (h : Mixed p q) : Mixed (n :: p) (n :: q) := by
  obtain ⟨r, a, b, p', q', h1, h2, h3⟩ := h
  exact ⟨n :: r, a, b, p', q', by rw [h1]; rfl, by rw [h2]; rfl, h3⟩

/-- What is elsewhere stays. -/
theorem put_other (v w : Json) (p q : List Str) (j : Json) (hp : Plain p) (hq : Plain q) (ha : Apart p q) (hm : ¬ Mixed p q)
    (hf : find (q.map tok) j = some w) : find (q.map tok) (put v (p.map tok) j) = some w := by
  induction p generalizing q j with
  | nil => exact absurd (List.nil_prefix) ha.1
  | cons n p ih =>
    cases q with
    | nil => exact absurd (List.nil_prefix) ha.2
    | cons k q =>
      rw [List.map_cons, List.map_cons] at *
      have hn := hp n (by simp)
      have hne : (tok n).name ≠ ['-'] := hn.1
      have hk := hq k (by simp)
      have hp' : Plain p := fun x hx => hp x (by simp [hx])
      have hq' : Plain q := fun x hx => hq x (by simp [hx])
      cases j with
      | null => simp [find] at hf
      | bool b => simp [find] at hf
      | num i => simp [find] at hf
      | dbl d => simp [find] at hf
      | str s => simp [find] at hf
      | obj l =>
        simp only [find] at hf
        by_cases hnk : n = k
        · subst hnk
          have hr : ∀ x, find (q.map tok) x = some w → find (q.map tok) (put v (p.map tok) x) = some w :=
            fun x hx => ih q x hp' hq' (apart_cons n p q ha) (fun h => hm (mixed_cons n p q h)) hx
          simp only [put]
          cases hfm : findM l (tok n).name with
          | none => rw [hfm] at hf; simp at hf
          | some x =>
            rw [hfm] at hf
            simp only [find]
            rw [findM_setM_same l _ _ (by rw [hfm]; simp)]
            exact hr x hf
        · have hne2 : (tok k).name ≠ (tok n).name := fun h => hnk h.symm
          simp only [put]
          cases hfm : findM l (tok n).name with
          | none =>
            simp only [find]
            rw [findM_append l _ _ _ hfm, if_neg hne2]
            exact hf
          | some x =>
            simp only [find]
            rw [findM_setM_other l _ _ _ hne2]
            exact hf
      | arr l =>
        simp only [find] at hf
        by_cases hb : (tok k).index = invalid ∨ (tok k).index ≥ l.length
        · rw [if_pos hb] at hf; simp at hf
        rw [if_neg hb] at hf
        have hkv : (tok k).index ≠ invalid := fun h => hb (Or.inl h)
        have hkl : (tok k).index < l.length := by omega
        have hki := index_valid k hkv
        have hkx := index_of k hki (hk.2 hki)
        by_cases hnk : n = k
        · subst hnk
          rw [put, if_neg hne, if_neg hkv, find_set _ _ _ _ hkv]
          have e : l[(tok n).index]? = some (elem l (tok n).index) := by
            simp only [elem]
            rw [List.getElem?_eq_getElem hkl]; rfl
          rw [e] at hf
          exact ih q _ hp' hq' (apart_cons n p q ha) (fun h => hm (mixed_cons n p q h)) hf
        · have hni : IsIndex n := by
            by_cases hx : IsIndex n
            · exact hx
            · exact absurd ⟨[], n, k, p, q, rfl, rfl, hnk, fun h => hx (h.mpr hki)⟩ hm
          have hnx := index_of n hni (hn.2 hni)
          have hii : (tok n).index ≠ (tok k).index := by
            rw [hnx.1, hkx.1]
            exact fun h => hnk (value_inj n k hni hki h)
          rw [put, if_neg hne, if_neg hnx.2]
          simp only [find]
          rw [List.length_set, if_neg (by have : l.length ≤ (grow l (tok n).index).length := by simp [grow]
                                          omega), List.getElem?_set_ne hii, grow_get _ _ _ hkl]
          exact hf

/-- Where small indices lead is where the names lead. -/
theorem find_plain (p : List Str) (j : Json) (hp : Plain p) : find (p.map tok) j = resolve p j := by
  induction p generalizing j with
  | nil => simp [find, resolve]
  | cons n p ih =>
    have hn := hp n (by simp)
    have ih := fun j => ih j (fun x hx => hp x (by simp [hx]))
    have hfun : find (p.map tok) = resolve p := funext ih
    cases j with
    | null => rfl
    | bool b => rfl
    | num i => rfl
    | dbl d => rfl
    | str s => rfl
    | obj l => rw [find_obj, resolve_obj, hfun]
    | arr l =>
      rw [find_arr, hfun]
      simp only [resolve]
      by_cases hx : IsIndex n
      · rw [if_pos hx]
        have hi : toIndex n = Spec.value n ∧ toIndex n ≠ invalid := index_of n hx (hn.2 hx)
        by_cases hl : toIndex n ≥ l.length
        · rw [if_pos (Or.inr hl), List.getElem?_eq_none (by omega)]; rfl
        · rw [if_neg (by intro h; rcases h with h | h; exact hi.2 h; exact hl h), hi.1]
      · rw [if_neg hx, if_pos (Or.inl (toIndex_none n hx))]

/-! ### Containers -/

theorem path_location (pre : Str) (b : Binding) (h : '\x00' ∉ pre) (h2 : '\x00' ∉ b.path) : encodePath pre b = location pre b.path := by
  have e : pointerPrefix pre ++ b.path = location pre b.path := by
    simp only [pointerPrefix, location]
    by_cases h1 : pre = []
    · simp [h1]
    · rw [if_neg h1, if_neg h1]
      by_cases h3 : pre.getLast? = some '/'
      · rw [if_pos h3, if_pos h3]; rfl
      · rw [if_neg h3, if_neg h3]; simp
  simp only [encodePath]
  rw [e]
  apply cstr_id
  simp only [location]
  split
  · simp [h2]
  · split <;> simp [h, h2]

/-- Every parameter of a container is found at its place in what the container is encoded to. -/
def C153_statement : Prop :=
  ∀ (pre : Str) (bs : List Binding) (doc : Json) (place : Binding → List Str),
    '\x00' ∉ pre → (∀ b ∈ bs, '\x00' ∉ b.path ∧ location pre b.path = text (place b)) →
    bs.Pairwise (fun a b => Apart (place a) (place b)) →
    ∃ d, encode pre bs doc = some d ∧ ∀ b ∈ bs, resolve (place b) d = some (getVal b.val)

/-- C153, for paths without a hyphen as a part, with indices below 2^28, no two of which differ first in that one has an index where the other one has a name. -/
theorem C153_partial (pre : Str) (bs : List Binding) (doc : Json) (place : Binding → List Str)
    (h0 : '\x00' ∉ pre) (hpl : ∀ b ∈ bs, '\x00' ∉ b.path ∧ location pre b.path = text (place b))
    (ha : bs.Pairwise (fun a b => Apart (place a) (place b)))
    (hplain : ∀ b ∈ bs, Plain (place b)) (hm : bs.Pairwise fun a b => ¬ Mixed (place b) (place a)) :
    ∃ d, encode pre bs doc = some d ∧ (∀ b ∈ bs, resolve (place b) d = some (getVal b.val)) ∧
      ∀ (q : List Str) w, Plain q → (∀ b ∈ bs, Apart (place b) q ∧ ¬ Mixed (place b) q) → resolve q doc = some w → resolve q d = some w := by
  induction bs generalizing doc with
  | nil => exact ⟨doc, rfl, by simp, fun q w _ _ h => h⟩
  | cons b bs ih =>
    obtain ⟨ha1, ha2⟩ := List.pairwise_cons.mp ha
    obtain ⟨hm1, hm2⟩ := List.pairwise_cons.mp hm
    have hb := hpl b (by simp)
    have hbp := hplain b (by simp)
    have hparse : parse (encodePath pre b) = some ((place b).map tok) := by
      rw [path_location pre b h0 hb.1, hb.2, parse_text]
    obtain ⟨d, hd, hin, hout⟩ := ih (put (getVal b.val) ((place b).map tok) doc) (fun x hx => hpl x (by simp [hx])) ha2
      (fun x hx => hplain x (by simp [hx])) hm2
    refine ⟨d, ?_, ?_, ?_⟩
    · simp only [encode]
      rw [hparse]
      exact hd
    · intro x hx
      rcases List.mem_cons.mp hx with rfl | hx
      · refine hout (place x) _ hbp (fun c hc => ⟨⟨(ha1 c hc).2, (ha1 c hc).1⟩, hm1 c hc⟩) ?_
        rw [← find_plain _ _ hbp]
        exact put_find _ _ _ hbp
      · exact hin x hx
    · intro q w hq hall hw
      refine hout q w hq (fun c hc => hall c (by simp [hc])) ?_
      rw [← find_plain _ _ hq] at hw ⊢
      exact put_other _ _ _ _ _ hbp hq (hall b (by simp)).1 (hall b (by simp)).2 hw

def exMixed : List Binding := [⟨"a/0".toList, .int, .one (.num 5)⟩, ⟨"a/x".toList, .int, .one (.num 6)⟩]

/-- The places of the example. -/
def exPlace (b : Binding) : List Str := splitAll b.path

/-- What a tree has at a place, as a number. -/
def numAt (p : List Str) (d : Option Json) : Option Int :=
  match d with
  | some d => match resolve p d with
    | some (.num i) => some i
    | _ => none
  | none => none

/-- C153 fails: `a/0` makes an array, which `a/x` replaces by an object. -/
theorem C153_violated : ¬ C153_statement := by
  intro h
  obtain ⟨d, hd, hr⟩ := h [] exMixed .null exPlace (by simp) (by decide +kernel) (by simp [exMixed, exPlace, splitAll, Apart])
  have h1 := hr ⟨"a/0".toList, .int, .one (.num 5)⟩ (by simp [exMixed])
  have h2 : numAt [['a'], ['0']] (encode [] exMixed .null) = none := by decide +kernel
  rw [hd] at h2
  have e : exPlace ⟨"a/0".toList, .int, .one (.num 5)⟩ = [['a'], ['0']] := by decide +kernel
  rw [e] at h1
  simp only [numAt, h1, getVal, getValue] at h2
  exact absurd h2 (by simp)

/-- A container of the same class is equal after an update from the encoded one, under the hypotheses of C153_partial and C52_partial. -/
theorem C153_update (conv : Int → Nat) (bs bs' : List Binding) (place : Binding → List Str)
    (hpl : ∀ b ∈ bs, '\x00' ∉ b.path ∧ location [] b.path = text (place b)) (ha : bs.Pairwise (fun a b => Apart (place a) (place b)))
    (hplain : ∀ b ∈ bs, Plain (place b)) (hm : bs.Pairwise fun a b => ¬ Mixed (place b) (place a)) (hs : ∀ b ∈ bs, b.path.head? ≠ some '/')
    (ht : WellTyped bs) (hc : ∀ b ∈ bs, ∀ v ∈ scalars b.val, Clean v) (hsh : bs'.map shape = bs.map shape) :
    ∃ d, encode [] bs .null = some d ∧ update conv d bs' = (bs, true) := by
  obtain ⟨d, hd, hfind, -⟩ := C153_partial [] bs .null place (by simp) hpl ha hplain hm
  refine ⟨d, hd, ?_⟩
  have key : ∀ (l l' : List Binding), (∀ b ∈ l, b ∈ bs) → l'.map shape = l.map shape → update conv d l' = (l, true) := by
    intro l
    induction l with
    | nil =>
      intro l' _ h
      cases l' with
      | nil => rfl
      | cons b l' => cases h
    | cons b l ih =>
      intro l' hmm h
      cases l' with
      | nil => cases h
      | cons b' l' =>
        simp only [List.map_cons, List.cons.injEq] at h
        obtain ⟨h1, h2⟩ := h
        have hb : b ∈ bs := hmm b (by simp)
        have h3 := hfind _ hb
        rw [← find_plain _ _ (hplain b hb)] at h3
        have hpath : parse (cstr (pointerPath b.path)) = some ((place b).map tok) := by
          have hl := (hpl b hb).2
          simp only [location, if_true] at hl
          rw [cstr_id]
          · simp only [pointerPath, if_neg (hs b hb)]
            rw [hl, parse_text]
          · simp only [pointerPath, if_neg (hs b hb)]
            simp [(hpl b hb).1]
        obtain ⟨path, ty, val⟩ := b
        obtain ⟨path', ty', val'⟩ := b'
        simp only [shape, Prod.mk.injEq] at h1
        obtain ⟨e1, e2, e3⟩ := h1
        subst e1 e2
        have h4 := setVal_get conv ty' val val' e3 (ht _ hb) (hc _ hb)
        have h5 : updateOne conv d ⟨path', ty', val'⟩ = (⟨path', ty', val⟩, true) := by
          simp only [updateOne]
          rw [hpath]
          simp only
          rw [h3]
          simp only [h4]
        have h6 := ih l' (fun x hx => hmm x (List.mem_cons_of_mem _ hx)) h2
        simp only [update, h5, h6, if_true]
  exact key bs bs' (fun b hb => hb) hsh

def exBs : List Binding := [⟨"a/0".toList, .int, .one (.num 5)⟩, ⟨"a/1".toList, .int, .one (.num 6)⟩, ⟨"b~1c".toList, .int, .one (.num 7)⟩]

def exNames (b : Binding) : List Str := if b.path = "b~1c".toList then ["b/c".toList] else splitAll b.path

/-- Non-vacuity: two elements of an array and a name with a slash. -/
example : (∀ b ∈ exBs, '\x00' ∉ b.path ∧ location [] b.path = text (exNames b)) ∧
    numAt ["a".toList, "1".toList] (encode [] exBs .null) = some 6 ∧ numAt ["b/c".toList] (encode [] exBs .null) = some 7 := by decide +kernel

example : exBs.Pairwise (fun a b => Apart (exNames a) (exNames b)) := by simp [exBs, exNames, splitAll, Apart]

example : ∀ b ∈ exBs, Plain (exNames b) := by
  intro b hb
  have : (exBs.all fun b => (exNames b).all fun n => decide (n ≠ ['-']) && (decide (Spec.value n < 2 ^ 28) || !decide (IsIndex n))) = true := by decide +kernel
  rw [List.all_eq_true] at this
  have h := this b hb
  rw [List.all_eq_true] at h
  intro n hn
  have h := h n hn
  simp only [Bool.and_eq_true, decide_eq_true_eq, Bool.or_eq_true, Bool.not_eq_true', decide_eq_false_iff_not] at h
  refine ⟨h.1, fun hi => ?_⟩
  rcases h.2 with h | h
  · exact h
  · exact absurd hi h

/-- A test for `Mixed`. -/
def mixedB : List Str → List Str → Bool
  | a :: p, b :: q => if a = b then mixedB p q else !(decide (IsIndex a) == decide (IsIndex b))
  | _, _ => false

theorem mixed_test (p q : List Str) (h : Mixed p q) : mixedB p q = true := by
  obtain ⟨r, a, b, p', q', rfl, rfl, hab, hi⟩ := h
  induction r with
  | nil =>
    simp only [List.nil_append, mixedB, if_neg hab]
    by_cases h1 : IsIndex a <;> by_cases h2 : IsIndex b <;> simp_all
  | cons n r ih => simpa [mixedB] using ih

example : exBs.Pairwise fun a b => ¬ Mixed (exNames b) (exNames a) := by
  have : exBs.Pairwise fun a b => mixedB (exNames b) (exNames a) = false := by decide +kernel
  exact this.imp fun h hm => by rw [mixed_test _ _ hm] at h; cases h

/-! ## Parameters that are not in the document, and errors -/

/-- A part `-` of a path appends to an array, so that a second encoding makes another element. -/
theorem C153_dash (v : Json) (l : List Json) : put v [tok ['-']] (.arr l) = .arr (l ++ [v]) := rfl

/-- Parameters that are not in the document keep their values, and are no error. -/
theorem C153_missing (conv : Int → Nat) (doc : Json) (hd : Small doc) (bs : List Binding)
    (h : ∀ b ∈ bs, ∃ ns, cstr (pointerPath b.path) = text ns ∧ resolve ns doc = none) : update conv doc bs = (bs, true) := by
  induction bs with
  | nil => rfl
  | cons b bs ih =>
    obtain ⟨ns, h1, h2⟩ := h b (by simp)
    have e : updateOne conv doc b = (b, true) := by
      unfold updateOne
      rw [h1, parse_text]
      dsimp only
      rw [find_resolve ns doc hd, h2]
    rw [update, e, ih fun c hc => h c (by simp [hc])]
    rfl

/-- A value that cannot be set ends the update: the parameters before it are updated, those behind it keep their values. -/
theorem C153_stops (conv : Int → Nat) (doc : Json) (l r : List Binding) (b : Binding) (hl : (update conv doc l).2 = true)
    (hb : (updateOne conv doc b).2 = false) : update conv doc (l ++ b :: r) = ((update conv doc l).1 ++ (updateOne conv doc b).1 :: r, false) := by
  induction l with
  | nil => simp [update, hb]
  | cons c l ih =>
    rw [update] at hl
    by_cases hc : (updateOne conv doc c).2 = true
    · rw [if_pos hc] at hl
      rw [List.cons_append, update, if_pos hc, ih hl, update, if_pos hc]
      rfl
    · rw [if_neg hc] at hl; cases hl

/-- Non-vacuity: `n` is missing in a document with `m`; a string for an integer is an error. -/
example : Small (.obj [(['m'], .num 1)]) ∧ cstr (pointerPath ['n']) = text [['n']] ∧ resolve [['n']] (.obj [(['m'], .num 1)]) = none ∧
    (updateOne (fun _ => 0) (.obj [(['n'], .str [])]) ⟨['n'], .int, .one (.num 5)⟩).2 = false := by
  refine ⟨?_, by decide, rfl, by decide +kernel⟩
  refine .obj _ fun m hm => ?_
  obtain rfl := List.mem_singleton.1 hm
  exact .num 1

end Verif.JsonPointer
