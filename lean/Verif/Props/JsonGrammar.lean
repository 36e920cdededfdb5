import Verif.Props.JsonText

/-!
C119: the reader accepts exactly the texts of the JSON grammar (RFC 8259), and gives the document they denote.
-/
namespace Verif.JsonText
open Verif.Ipc (Str Json)
open Verif.Receiver (dec digitsF digitChar)

/-! ## The grammar -/

/-- White space, RFC 8259 section 2. -/
def Ws (w : Str) : Prop := ∀ c ∈ w, c = ' ' ∨ c = '\t' ∨ c = '\n' ∨ c = '\r'

/-- A hexadecimal digit and its value. -/
def Hex (c : Char) (v : Nat) : Prop :=
  (c, v) ∈ ("0123456789abcdef".toList.zip (List.range 16)) ∨ (c, v) ∈ ("ABCDEF".toList.zip [10, 11, 12, 13, 14, 15])

/-- Four hexadecimal digits and their value. -/
def Hex4 (h : Str) (n : Nat) : Prop :=
  ∃ a b c d x y z w, h = [a, b, c, d] ∧ Hex a x ∧ Hex b y ∧ Hex c z ∧ Hex d w ∧ n = ((x * 16 + y) * 16 + z) * 16 + w

/-- The escapes of two characters, RFC 8259 section 7. -/
def escapes : List (Char × Char) :=
  [('"', '"'), ('\\', '\\'), ('/', '/'), ('b', '\x08'), ('f', '\x0c'), ('n', '\n'), ('r', '\r'), ('t', '\t')]

/-- The inside of a string, RFC 8259 section 7, and its characters in UTF-8. The first half of a surrogate pair must be
followed by a second half (the RFC leaves the behaviour open otherwise). -/
inductive Chars : Str → Str → Prop
  | nil : Chars [] []
  | plain (c : Char) (t s : Str) : 32 ≤ c.toNat → c ≠ '"' → c ≠ '\\' → Chars t s → Chars (c :: t) (c :: s)
  | esc (c e : Char) (t s : Str) : (c, e) ∈ escapes → Chars t s → Chars ('\\' :: c :: t) (e :: s)
  | uni (h : Str) (n : Nat) (t s : Str) : Hex4 h n → ¬ (0xD800 ≤ n ∧ n ≤ 0xDBFF) → Chars t s →
      Chars ('\\' :: 'u' :: (h ++ t)) (utf8 n ++ s)
  | pair (h g : Str) (n m : Nat) (t s : Str) : Hex4 h n → 0xD800 ≤ n → n ≤ 0xDBFF → Hex4 g m → 0xDC00 ≤ m → m ≤ 0xDFFF →
      Chars t s → Chars ('\\' :: 'u' :: (h ++ '\\' :: 'u' :: (g ++ t))) (utf8 (surrogates n m) ++ s)

/-- One or more digits. -/
def Digits (t : Str) : Prop := t ≠ [] ∧ ∀ c ∈ t, isDigit c = true

/-- The fraction of a number, or nothing. -/
def Frac (t : Str) : Prop := t = [] ∨ ∃ u, t = '.' :: u ∧ Digits u

/-- The exponent of a number, or nothing. -/
def Expo (t : Str) : Prop :=
  t = [] ∨ ∃ e g u, t = e :: (g ++ u) ∧ (e = 'e' ∨ e = 'E') ∧ (g = [] ∨ g = ['+'] ∨ g = ['-']) ∧ Digits u

def sgn (minus : Bool) : Str := if minus then ['-'] else []

/-- Magnitudes that a 64-bit integer can have. -/
def InRange (minus : Bool) (n : Nat) : Prop := if minus then n ≤ 2 ^ 63 else n < 2 ^ 64

instance (minus : Bool) (n : Nat) : Decidable (InRange minus n) := by unfold InRange; infer_instance

/-- The name of a member, with the colon and white space around both. -/
def Key (t k : Str) : Prop :=
  ∃ a ks b c, Ws a ∧ Chars ks k ∧ Ws b ∧ Ws c ∧ t = a ++ '"' :: (ks ++ '"' :: (b ++ ':' :: c))

mutual
/-- A value, RFC 8259 sections 3 to 6. Numbers are a sign, decimal digits without leading zeros, a fraction and an
exponent; without fraction and exponent and within 64 bits they are integers, all others are given by `V`. -/
inductive JVal (V : Str → Option Nat) : Str → Json → Prop
  | null : JVal V "null".toList .null
  | true : JVal V "true".toList (.bool Bool.true)
  | false : JVal V "false".toList (.bool Bool.false)
  | int (minus : Bool) (n : Nat) : InRange minus n → JVal V (sgn minus ++ dec n) (.num (if minus then -(n : Int) else n))
  | dbl (minus : Bool) (n : Nat) (f e : Str) (d : Nat) : Frac f → Expo e → (¬ InRange minus n ∨ f ≠ [] ∨ e ≠ []) →
      V (sgn minus ++ (dec n ++ (f ++ e))) = some d → JVal V (sgn minus ++ (dec n ++ (f ++ e))) (.dbl d)
  | str (t s : Str) : Chars t s → JVal V ('"' :: (t ++ ['"'])) (.str s)
  | arr0 (w : Str) : Ws w → JVal V ('[' :: (w ++ [']'])) (.arr [])
  | arr (t : Str) (l : List Json) : JElems V t l → JVal V ('[' :: (t ++ [']'])) (.arr l)
  | obj0 (w : Str) : Ws w → JVal V ('{' :: (w ++ ['}'])) (.obj [])
  | obj (t : Str) (l : List (Str × Json)) : JMembers V t l → JVal V ('{' :: (t ++ ['}'])) (.obj l)
/-- One or more elements, separated by commas. -/
inductive JElems (V : Str → Option Nat) : Str → List Json → Prop
  | one (a t b : Str) (v : Json) : Ws a → JVal V t v → Ws b → JElems V (a ++ (t ++ b)) [v]
  | more (a t b : Str) (v : Json) (t' : Str) (l : List Json) : Ws a → JVal V t v → Ws b → JElems V t' l →
      JElems V (a ++ (t ++ (b ++ ',' :: t'))) (v :: l)
/-- One or more members, separated by commas. -/
inductive JMembers (V : Str → Option Nat) : Str → List (Str × Json) → Prop
  | one (a k t b : Str) (v : Json) : Key a k → JVal V t v → Ws b → JMembers V (a ++ (t ++ b)) [(k, v)]
  | more (a k t b : Str) (v : Json) (t' : Str) (l : List (Str × Json)) : Key a k → JVal V t v → Ws b → JMembers V t' l →
      JMembers V (a ++ (t ++ (b ++ ',' :: t'))) ((k, v) :: l)
end

/-- A JSON text: a value with white space around it, up to the end or a NUL character. -/
def JText (V : Str → Option Nat) (s : Str) (j : Json) : Prop :=
  ∃ a t b e, s = a ++ (t ++ (b ++ e)) ∧ Ws a ∧ JVal V t j ∧ Ws b ∧ (e = [] ∨ ∃ r, e = '\x00' :: r)

/-! ## White space -/

theorem isWs_iff (c : Char) : isWs c = true ↔ c = ' ' ∨ c = '\t' ∨ c = '\n' ∨ c = '\r' := by
  simp only [isWs, Bool.or_eq_true, beq_iff_eq]
  constructor
  · rintro (((h | h) | h) | h) <;> simp [h]
  · rintro (h | h | h | h) <;> simp [h]

theorem skipWs_split (s : Str) : ∃ w, Ws w ∧ s = w ++ skipWs s := by
  refine ⟨s.takeWhile isWs, ?_, (List.takeWhile_append_dropWhile).symm⟩
  intro c hc
  exact (isWs_iff c).1 (List.all_eq_true.1 List.all_takeWhile c hc)

theorem skipWs_append (w s : Str) (h : Ws w) : skipWs (w ++ s) = skipWs s := by
  induction w with
  | nil => rfl
  | cons c w ih =>
    have hc := (isWs_iff c).2 (h c (by simp))
    have := ih (fun x hx => h x (by simp [hx]))
    simpa [skipWs, hc] using this

theorem Ws.nil : Ws [] := fun _ h => by cases h

theorem Ws.append {a b : Str} (ha : Ws a) (hb : Ws b) : Ws (a ++ b) := by
  intro c hc
  rcases List.mem_append.1 hc with h | h
  · exact ha c h
  · exact hb c h

/-! ## Strings -/

attribute [local irreducible] utf8

theorem hexVal_iff (c : Char) (v : Nat) : hexVal c = some v ↔ Hex c v := by
  constructor
  · intro h
    have hc : c.toNat < 128 := by
      unfold hexVal at h
      dsimp only at h
      split at h
      · omega
      · split at h
        · omega
        · split at h
          · omega
          · cases h
    have key : ∀ n : Fin 128, ∀ v ∈ hexVal (Char.ofNat n.val), Hex (Char.ofNat n.val) v := by
      unfold Hex
      decide +kernel
    have := key ⟨c.toNat, hc⟩ v
    simp only [Char.ofNat_toNat] at this
    exact this h
  · intro h
    have key : (∀ p ∈ ("0123456789abcdef".toList.zip (List.range 16)), hexVal p.1 = some p.2) ∧
        (∀ p ∈ ("ABCDEF".toList.zip [10, 11, 12, 13, 14, 15]), hexVal p.1 = some p.2) := by decide +kernel
    rcases h with h | h
    · exact key.1 _ h
    · exact key.2 _ h

theorem escOf_iff (c e : Char) : escOf c = some e ↔ (c, e) ∈ escapes := by
  constructor
  · intro h
    unfold escOf at h
    split at h <;> first | (cases h; done) | (cases h; decide)
  · intro h
    have key : ∀ p ∈ escapes, escOf p.1 = some p.2 := by decide +kernel
    exact key _ h

theorem escOf_u : escOf 'u' = none := by decide

/-- What follows from a place in a string on: the text up to the closing quote and the characters it stands for. -/
def Follows : At → Str → Str → Prop
  | .plain, t, s => Chars t s
  | .esc, t, s => Chars ('\\' :: t) s
  | .hex more cp lead, t, s => ∃ h n u s', t = h ++ u ∧ h.length = more + 1 ∧
      (∃ vs : List Nat, h.length = vs.length ∧ (∀ p ∈ h.zip vs, Hex p.1 p.2) ∧ n = vs.foldl (fun a v => a * 16 + v) cp) ∧
      match lead with
      | none =>
        if 0xD800 ≤ n ∧ n ≤ 0xDBFF then
          ∃ g m u', u = '\\' :: 'u' :: (g ++ u') ∧ Hex4 g m ∧ 0xDC00 ≤ m ∧ m ≤ 0xDFFF ∧ Chars u' s' ∧
            s = utf8 (surrogates n m) ++ s'
        else Chars u s' ∧ s = utf8 n ++ s'
      | some l => 0xDC00 ≤ n ∧ n ≤ 0xDFFF ∧ Chars u s' ∧ s = utf8 (surrogates l n) ++ s'
  | .low1 l, t, s => ∃ g m u s', t = '\\' :: 'u' :: (g ++ u) ∧ Hex4 g m ∧ 0xDC00 ≤ m ∧ m ≤ 0xDFFF ∧ Chars u s' ∧
      s = utf8 (surrogates l m) ++ s'
  | .low2 l, t, s => ∃ g m u s', t = 'u' :: (g ++ u) ∧ Hex4 g m ∧ 0xDC00 ≤ m ∧ m ≤ 0xDFFF ∧ Chars u s' ∧
      s = utf8 (surrogates l m) ++ s'

theorem hex4_of (h : Str) (vs : List Nat) (hl : h.length = 4) (hv : h.length = vs.length)
    (hh : ∀ p ∈ h.zip vs, Hex p.1 p.2) : Hex4 h (vs.foldl (fun a v => a * 16 + v) 0) := by
  match h, vs with
  | [a, b, c, d], [x, y, z, w] =>
    refine ⟨a, b, c, d, x, y, z, w, rfl, hh (a, x) (by simp), hh (b, y) (by simp), hh (c, z) (by simp), hh (d, w) (by simp), ?_⟩
    simp

theorem hex4_to (h : Str) (n : Nat) (hh : Hex4 h n) : ∃ vs : List Nat, h.length = 4 ∧ h.length = vs.length ∧
    (∀ p ∈ h.zip vs, Hex p.1 p.2) ∧ n = vs.foldl (fun a v => a * 16 + v) 0 := by
  obtain ⟨a, b, c, d, x, y, z, w, rfl, h1, h2, h3, h4, rfl⟩ := hh
  refine ⟨[x, y, z, w], rfl, rfl, ?_, by simp⟩
  intro p hp
  simp only [List.zip_cons_cons, List.zip_nil_right, List.mem_cons, List.not_mem_nil, or_false] at hp
  rcases hp with rfl | rfl | rfl | rfl <;> assumption

theorem front_inv {a : Str} {x : R Str} {v r : Str} (h : x.front a = .ok v r) : ∃ v', x = .ok v' r ∧ v = a ++ v' := by
  cases x with
  | ok v' r' => simp only [R.front, R.bind, R.ok.injEq] at h; exact ⟨v', by rw [h.2], h.1.symm⟩
  | err => simp [R.front, R.bind] at h
  | deep => simp [R.front, R.bind] at h
  | stuck => simp [R.front, R.bind] at h

theorem readStr_sound (s : Str) (a : At) (v r : Str) (h : readStr a s = .ok v r) : ∃ t, s = t ++ '"' :: r ∧ Follows a t v := by
  induction s generalizing a v with
  | nil => cases a <;> simp [readStr] at h
  | cons c s ih =>
    cases a with
    | plain =>
      simp only [readStr] at h
      split at h
      · next hc =>
        obtain ⟨t, e, hf⟩ := ih _ _ h
        exact ⟨c :: t, by rw [e]; rfl, by rw [hc]; exact hf⟩
      · next hc =>
        split at h
        · next hq =>
          cases h
          exact ⟨[], by rw [hq]; rfl, Chars.nil⟩
        · next hq =>
          split at h
          · cases h
          · next h32 =>
            obtain ⟨v', h', rfl⟩ := front_inv h
            obtain ⟨t, e, hf⟩ := ih _ _ h'
            exact ⟨c :: t, by rw [e]; rfl, Chars.plain c t v' (by omega) hq hc hf⟩
    | esc =>
      simp only [readStr] at h
      split at h
      · next e he =>
        obtain ⟨v', h', rfl⟩ := front_inv h
        obtain ⟨t, e', hf⟩ := ih _ _ h'
        exact ⟨c :: t, by rw [e']; rfl, Chars.esc c e t v' ((escOf_iff c e).1 he) hf⟩
      · split at h
        · next hu =>
          obtain ⟨t, e', hf⟩ := ih _ _ h
          obtain ⟨hx, n, u, s', rfl, hl, ⟨vs, hv, hh, hn⟩, hrest⟩ := hf
          refine ⟨c :: (hx ++ u), by rw [e']; rfl, ?_⟩
          have h4 := hex4_of hx vs hl hv hh
          rw [← hn] at h4
          dsimp only at hrest
          show Chars ('\\' :: c :: (hx ++ u)) v
          rw [hu]
          split at hrest
          · next hsur =>
            obtain ⟨g, m, u', rfl, hg, m1, m2, hcs, rfl⟩ := hrest
            exact Chars.pair hx g n m u' s' h4 hsur.1 hsur.2 hg m1 m2 hcs
          · next hsur =>
            obtain ⟨hcs, rfl⟩ := hrest
            exact Chars.uni hx n u s' h4 hsur hcs
        · cases h
    | hex more cp lead =>
      simp only [readStr] at h
      split at h
      · cases h
      · next x hx =>
        have hX := (hexVal_iff c x).1 hx
        cases more with
        | succ more =>
          dsimp only at h
          obtain ⟨t, e', hf⟩ := ih _ _ h
          obtain ⟨hs, n, u, s', rfl, hl, ⟨vs, hv, hh, hn⟩, hrest⟩ := hf
          refine ⟨c :: (hs ++ u), by rw [e']; rfl, c :: hs, n, u, s', rfl, by simp [hl], ⟨x :: vs, by simp [hv], ?_, hn⟩, hrest⟩
          intro p hp
          rcases List.mem_cons.1 hp with rfl | hp
          · exact hX
          · exact hh p hp
        | zero =>
          dsimp only at h
          have hone : ∀ p ∈ [c].zip [x], Hex p.1 p.2 := by
            intro p hp
            simp only [List.zip_cons_cons, List.zip_nil_right, List.mem_cons, List.not_mem_nil, or_false] at hp
            rw [hp]; exact hX
          cases lead with
          | none =>
            dsimp only at h
            split at h
            · next hsur =>
              obtain ⟨t, e', hf⟩ := ih _ _ h
              obtain ⟨g, m, u, s', rfl, hg, m1, m2, hcs, rfl⟩ := hf
              refine ⟨c :: ('\\' :: 'u' :: (g ++ u)), by rw [e']; rfl, [c], cp * 16 + x, _, s', rfl, rfl,
                ⟨[x], rfl, hone, rfl⟩, ?_⟩
              dsimp only
              rw [if_pos hsur]
              exact ⟨g, m, u, rfl, hg, m1, m2, hcs, rfl⟩
            · next hsur =>
              obtain ⟨v', h', rfl⟩ := front_inv h
              obtain ⟨t, e', hf⟩ := ih _ _ h'
              refine ⟨c :: t, by rw [e']; rfl, [c], cp * 16 + x, t, v', rfl, rfl, ⟨[x], rfl, hone, rfl⟩, ?_⟩
              dsimp only
              rw [if_neg hsur]
              exact ⟨hf, rfl⟩
          | some l =>
            dsimp only at h
            split at h
            · cases h
            · next hsur =>
              obtain ⟨v', h', rfl⟩ := front_inv h
              obtain ⟨t, e', hf⟩ := ih _ _ h'
              exact ⟨c :: t, by rw [e']; rfl, [c], cp * 16 + x, t, v', rfl, rfl, ⟨[x], rfl, hone, rfl⟩,
                by omega, by omega, hf, rfl⟩
    | low1 l =>
      simp only [readStr] at h
      split at h
      · next hc =>
        obtain ⟨t, e', hf⟩ := ih _ _ h
        obtain ⟨g, m, u, s', rfl, rest⟩ := hf
        exact ⟨c :: ('u' :: (g ++ u)), by rw [e']; rfl, g, m, u, s', by rw [hc], rest⟩
      · cases h
    | low2 l =>
      simp only [readStr] at h
      split at h
      · next hc =>
        obtain ⟨t, e', hf⟩ := ih _ _ h
        obtain ⟨hs, n, u, s', rfl, hl, ⟨vs, hv, hh, hn⟩, m1, m2, hcs, rfl⟩ := hf
        have h4 := hex4_of hs vs hl hv hh
        rw [← hn] at h4
        exact ⟨c :: (hs ++ u), by rw [e']; rfl, hs, n, u, s', by rw [hc], h4, m1, m2, hcs, rfl⟩
      · cases h

theorem readStr_hex4 (h : Str) (n : Nat) (hh : Hex4 h n) (lead : Option Nat) (s : Str) :
    readStr (.hex 3 0 lead) (h ++ s) = (match lead with
      | none => if 0xD800 ≤ n ∧ n ≤ 0xDBFF then readStr (.low1 n) s else (readStr .plain s).front (utf8 n)
      | some l => if n < 0xDC00 ∨ n > 0xDFFF then .err
          else (readStr .plain s).front (utf8 (surrogates l n))) := by
  obtain ⟨a, b, c, d, x, y, z, w, rfl, h1, h2, h3, h4, rfl⟩ := hh
  have h1 := (hexVal_iff a x).2 h1
  have h2 := (hexVal_iff b y).2 h2
  have h3 := (hexVal_iff c z).2 h3
  have h4 := (hexVal_iff d w).2 h4
  simp only [List.cons_append, List.nil_append, readStr, h1, h2, h3, h4, Nat.zero_mul, Nat.zero_add]
  cases lead <;> rfl

theorem readStr_complete (t s : Str) (h : Chars t s) (r : Str) : readStr .plain (t ++ '"' :: r) = .ok s r := by
  induction h with
  | nil => rfl
  | plain c t s h32 hq hb _ ih =>
    rw [List.cons_append, readStr, if_neg hb, if_neg hq, if_neg (by omega), ih]
    rfl
  | esc c e t s he _ ih =>
    rw [List.cons_append, List.cons_append, readStr, if_pos rfl, readStr]
    rw [(escOf_iff c e).2 he]
    dsimp only
    rw [ih]
    rfl
  | uni h n t s hh hn _ ih =>
    simp only [List.cons_append, List.append_assoc]
    rw [readStr, if_pos rfl, readStr, escOf_u]
    dsimp only
    rw [if_pos rfl, readStr_hex4 h n hh]
    dsimp only
    rw [if_neg hn, ih]
    rfl
  | pair h g n m t s hh h1 h2 hg m1 m2 _ ih =>
    simp only [List.cons_append, List.append_assoc]
    rw [readStr, if_pos rfl, readStr, escOf_u]
    dsimp only
    rw [if_pos rfl, readStr_hex4 h n hh]
    dsimp only
    rw [if_pos ⟨h1, h2⟩, readStr, if_pos rfl, readStr, if_pos rfl, readStr_hex4 g m hg]
    dsimp only
    rw [if_neg (by omega), ih]
    rfl

/-! ## Numbers -/

theorem rev_ind {α : Type} {P : List α → Prop} (h0 : P []) (h1 : ∀ l a, P l → P (l ++ [a])) (l : List α) : P l := by
  have : ∀ l : List α, P l.reverse := by
    intro l
    induction l with
    | nil => exact h0
    | cons a l ih => rw [List.reverse_cons]; exact h1 _ _ ih
  have := this l.reverse
  rwa [List.reverse_reverse] at this

theorem fold_snoc (a : Nat) (l : List Nat) (e : Nat) : fold a (l ++ [e]) = fold a l * 10 + e := by
  simp [fold, List.foldl_append]

theorem digitsF_fold (d : Nat) (h0 : 0 < d) (hd : d < 10) (l : List Nat) (hl : ∀ x ∈ l, x < 10) :
    ∀ f, fold d l < f → digitsF f (fold d l) = d :: l := by
  revert hl
  refine rev_ind (P := fun l => (∀ x ∈ l, x < 10) → ∀ f, fold d l < f → digitsF f (fold d l) = d :: l) ?_ ?_ l
  · intro _ f hf
    obtain ⟨f, rfl⟩ : ∃ g, f = g + 1 := ⟨f - 1, by omega⟩
    simp [fold, digitsF, hd]
  · intro l e ih hl f hf
    obtain ⟨f, rfl⟩ : ∃ g, f = g + 1 := ⟨f - 1, by omega⟩
    have he := hl e (by simp)
    have hge := fold_ge l d
    rw [fold_snoc] at hf ⊢
    have e1 : (fold d l * 10 + e) / 10 = fold d l := by omega
    have e2 : (fold d l * 10 + e) % 10 = e := by omega
    rw [digitsF, if_neg (by omega), e1, e2, ih (fun x hx => hl x (by simp [hx])) f (by omega)]
    rfl

theorem dec_fold (d : Nat) (h0 : 0 < d) (hd : d < 10) (l : List Nat) (hl : ∀ x ∈ l, x < 10) :
    dec (fold d l) = digitChar d :: l.map digitChar := by
  rw [dec, digitsF_fold d h0 hd l hl _ (Nat.lt_succ_self _)]
  rfl

theorem digitChar_of (c : Char) (h : isDigit c = true) : digitChar (c.toNat - 48) = c ∧ c.toNat - 48 < 10 := by
  simp only [isDigit, Bool.and_eq_true, decide_eq_true_eq] at h
  refine ⟨?_, by omega⟩
  have : 48 + (c.toNat - 48) = c.toNat := by omega
  rw [digitChar, this, Char.ofNat_toNat]

theorem intLoop_sound (lim last : Nat) (hlast : last < 10) (s : Str) (i p : Nat) (b : Bool) (r : Str)
    (hi : i ≤ lim * 10 + last) (h : intLoop lim last i s = (p, b, r)) :
    ∃ l, (∀ d ∈ l, d < 10) ∧ s = l.map digitChar ++ r ∧ p = fold i l ∧ p ≤ lim * 10 + last ∧
      (b = true → ∃ e r', e < 10 ∧ r = digitChar e :: r' ∧ lim * 10 + last < p * 10 + e) := by
  induction s generalizing i with
  | nil =>
    simp only [intLoop, Prod.mk.injEq] at h
    obtain ⟨rfl, rfl, rfl⟩ := h
    exact ⟨[], by simp, rfl, rfl, hi, by simp⟩
  | cons c s ih =>
    simp only [intLoop] at h
    split at h
    · next hc =>
      obtain ⟨e1, e2⟩ := digitChar_of c hc
      split at h
      · next hstop =>
        simp only [Prod.mk.injEq] at h
        obtain ⟨rfl, rfl, rfl⟩ := h
        exact ⟨[], by simp, rfl, rfl, hi, fun _ => ⟨c.toNat - 48, s, e2, by rw [e1], by omega⟩⟩
      · next hstop =>
        obtain ⟨l, h1, h2, h3, h4⟩ := ih _ (by omega) h
        refine ⟨(c.toNat - 48) :: l, ?_, by rw [List.map_cons, e1, List.cons_append, ← h2], h3, h4⟩
        intro d hd
        rcases List.mem_cons.1 hd with rfl | hd
        · exact e2
        · exact h1 d hd
    · simp only [Prod.mk.injEq] at h
      obtain ⟨rfl, rfl, rfl⟩ := h
      exact ⟨[], by simp, rfl, rfl, hi, by simp⟩

theorem fold_append (a : Nat) (l m : List Nat) : fold a (l ++ m) = fold (fold a l) m := by
  simp [fold, List.foldl_append]

/-- The digits at the start of a text. -/
theorem digits_split (s : Str) : ∃ l : List Nat, (∀ d ∈ l, d < 10) ∧ s = l.map digitChar ++ s.dropWhile isDigit := by
  induction s with
  | nil => exact ⟨[], by simp, rfl⟩
  | cons c s ih =>
    by_cases hc : isDigit c = true
    · obtain ⟨l, h1, h2⟩ := ih
      obtain ⟨e1, e2⟩ := digitChar_of c hc
      refine ⟨(c.toNat - 48) :: l, ?_, ?_⟩
      · intro d hd
        rcases List.mem_cons.1 hd with rfl | hd
        · exact e2
        · exact h1 d hd
      · rw [List.map_cons, e1, List.cons_append, List.dropWhile_cons, if_pos hc, ← h2]
    · exact ⟨[], by simp, by rw [List.dropWhile_cons, if_neg hc]; rfl⟩

def maxOf (minus : Bool) : Nat := if minus then 922337203685477580 * 10 + 8 else 1844674407370955161 * 10 + 5

theorem inRange_iff (minus : Bool) (n : Nat) : InRange minus n ↔ n ≤ maxOf minus := by
  have n63 : (2 : Nat) ^ 63 = 922337203685477580 * 10 + 8 := by decide
  have n64 : (2 : Nat) ^ 64 = 1844674407370955161 * 10 + 5 + 1 := by decide
  cases minus
  · simp only [InRange, maxOf, Bool.false_eq_true, if_false] <;> omega
  · simp only [InRange, maxOf, if_true] <;> omega

theorem wide_sound (minus : Bool) (d : Nat) (hd : d < 10) (s : Str) (p : Nat) (b : Bool) (r : Str)
    (h : wide minus (if minus then intLoop 214748364 8 d s else intLoop 429496729 5 d s) = (p, b, r)) :
    ∃ l, (∀ x ∈ l, x < 10) ∧ s = l.map digitChar ++ r ∧ p = fold d l ∧ p ≤ maxOf minus ∧
      (b = true → ∃ e r', e < 10 ∧ r = digitChar e :: r' ∧ maxOf minus < p * 10 + e) := by
  have hk : ∃ lim last lim2, last < 10 ∧ lim * 10 + last ≤ lim2 * 10 + last ∧ lim2 * 10 + last = maxOf minus ∧ 1 ≤ lim ∧
      (if minus then intLoop 214748364 8 d s else intLoop 429496729 5 d s) = intLoop lim last d s ∧
      ∀ x : Nat × Bool × Str, wide minus x = if x.2.1 then intLoop lim2 last x.1 x.2.2 else x := by
    cases minus
    · exact ⟨429496729, 5, 1844674407370955161, by omega, by omega, rfl, by omega, rfl, fun x => rfl⟩
    · exact ⟨214748364, 8, 922337203685477580, by omega, by omega, rfl, by omega, rfl, fun x => rfl⟩
  obtain ⟨lim, last, lim2, hlast, hle, hmax, hlim, e1, e2⟩ := hk
  rw [e1, e2] at h
  generalize hx : intLoop lim last d s = x at h
  obtain ⟨p1, b1, r1⟩ := x
  obtain ⟨l1, a1, a2, a3, a4, a5⟩ := intLoop_sound lim last hlast s d p1 b1 r1 (by omega) hx
  cases b1 with
  | false =>
    simp only [Bool.false_eq_true, if_false, Prod.mk.injEq] at h
    obtain ⟨rfl, rfl, rfl⟩ := h
    exact ⟨l1, a1, a2, a3, by omega, by simp⟩
  | true =>
    simp only [if_true] at h
    obtain ⟨l2, c1, c2, c3, c4, c5⟩ := intLoop_sound lim2 last hlast r1 p1 p b r (by omega) h
    refine ⟨l1 ++ l2, ?_, ?_, ?_, by omega, ?_⟩
    · intro x hx
      rcases List.mem_append.1 hx with hx | hx
      · exact a1 x hx
      · exact c1 x hx
    · rw [List.map_append, List.append_assoc, ← c2, ← a2]
    · rw [fold_append, ← a3, ← c3]
    · rw [← hmax]; exact c5

theorem intPart_sound (minus : Bool) (s : Str) (i : Nat) (big : Bool) (r : Str) (h : intPart minus s = some (i, big, r)) :
    ∃ n, s = dec n ++ (if big then r.dropWhile isDigit else r) ∧
      (big = false → n = i ∧ InRange minus n) ∧ (big = true → ¬ InRange minus n) := by
  cases s with
  | nil => simp [intPart] at h
  | cons c s =>
    simp only [intPart] at h
    split at h
    · next hc =>
      simp only [Option.some.injEq, Prod.mk.injEq] at h
      obtain ⟨rfl, rfl, rfl⟩ := h
      refine ⟨0, by rw [dec_zero, hc]; rfl, fun _ => ⟨rfl, ?_⟩, by simp⟩
      rw [inRange_iff]; omega
    · next hc =>
      split at h
      · next hdig =>
        obtain ⟨e1, e2⟩ := digitChar_of c hdig
        have h0 : 0 < c.toNat - 48 := by
          rcases Nat.eq_zero_or_pos (c.toNat - 48) with hz | hz
          · rw [hz] at e1
            exact absurd e1.symm hc
          · exact hz
        simp only [Option.some.injEq] at h
        obtain ⟨l, a1, a2, a3, a4, a5⟩ := wide_sound minus _ e2 s i big r h
        cases big with
        | false =>
          refine ⟨i, ?_, fun _ => ⟨rfl, (inRange_iff _ _).2 a4⟩, by simp⟩
          simp only [Bool.false_eq_true, if_false]
          rw [a3, dec_fold _ h0 e2 l a1, e1, List.cons_append, ← a2]
        | true =>
          obtain ⟨e, r', he, rfl, hgt⟩ := a5 rfl
          obtain ⟨m, b1, b2⟩ := digits_split r'
          have hdw : (digitChar e :: r').dropWhile isDigit = r'.dropWhile isDigit := by
            rw [List.dropWhile_cons, if_pos (digit_facts e he).1]
          refine ⟨fold (c.toNat - 48) (l ++ e :: m), ?_, by simp, fun _ => ?_⟩
          · simp only [if_true]
            rw [hdw, dec_fold _ h0 e2]
            · rw [e1, List.map_append, List.map_cons, a2]
              simp only [List.cons_append, List.append_assoc]
              rw [← b2]
            · intro x hx
              rcases List.mem_append.1 hx with hx | hx
              · exact a1 x hx
              · rcases List.mem_cons.1 hx with rfl | hx
                · exact he
                · exact b1 x hx
          · rw [inRange_iff, fold_append, ← a3]
            have := fold_ge m (i * 10 + e)
            have e3 : fold i (e :: m) = fold (i * 10 + e) m := rfl
            omega
      · cases h

theorem startsDigit_split (s : Str) (h : startsDigit s = true) : ∃ u, Digits u ∧ s = u ++ s.dropWhile isDigit := by
  refine ⟨s.takeWhile isDigit, ⟨?_, fun c hc => List.all_eq_true.1 List.all_takeWhile c hc⟩,
    List.takeWhile_append_dropWhile.symm⟩
  cases s with
  | nil => simp [startsDigit] at h
  | cons c s =>
    simp only [startsDigit] at h
    rw [List.takeWhile_cons, if_pos h]
    simp

theorem fraction_sound (s r : Str) (b : Bool) (h : fraction s = some (b, r)) :
    ∃ f, Frac f ∧ s = f ++ r ∧ (b = true ↔ f ≠ []) := by
  unfold fraction at h
  split at h
  · next s1 =>
    split at h
    · next hs =>
      simp only [Option.some.injEq, Prod.mk.injEq] at h
      obtain ⟨rfl, rfl⟩ := h
      obtain ⟨u, h1, h2⟩ := startsDigit_split s1 hs
      exact ⟨'.' :: u, Or.inr ⟨u, rfl, h1⟩, by rw [List.cons_append, ← h2], by simp⟩
    · cases h
  · simp only [Option.some.injEq, Prod.mk.injEq] at h
    obtain ⟨rfl, rfl⟩ := h
    exact ⟨[], Or.inl rfl, rfl, by simp⟩

theorem expSign_split (s : Str) : ∃ g, (g = [] ∨ g = ['+'] ∨ g = ['-']) ∧ s = g ++ expSign s := by
  unfold expSign
  split
  · exact ⟨['+'], by simp, rfl⟩
  · exact ⟨['-'], by simp, rfl⟩
  · exact ⟨[], by simp, rfl⟩

theorem exponent_sound (s r : Str) (b : Bool) (h : exponent s = some (b, r)) :
    ∃ e, Expo e ∧ s = e ++ r ∧ (b = true ↔ e ≠ []) := by
  cases s with
  | nil =>
    simp only [exponent, Option.some.injEq, Prod.mk.injEq] at h
    obtain ⟨rfl, rfl⟩ := h
    exact ⟨[], Or.inl rfl, rfl, by simp⟩
  | cons c s =>
    simp only [exponent] at h
    split at h
    · next hc =>
      split at h
      · next hs =>
        simp only [Option.some.injEq, Prod.mk.injEq] at h
        obtain ⟨rfl, rfl⟩ := h
        obtain ⟨g, g1, g2⟩ := expSign_split s
        obtain ⟨u, h1, h2⟩ := startsDigit_split _ hs
        refine ⟨c :: (g ++ u), Or.inr ⟨c, g, u, rfl, hc, g1, h1⟩, ?_, by simp⟩
        rw [List.cons_append, List.append_assoc, ← h2, ← g2]
      · cases h
    · simp only [Option.some.injEq, Prod.mk.injEq] at h
      obtain ⟨rfl, rfl⟩ := h
      exact ⟨[], Or.inl rfl, rfl, by simp⟩

theorem sgn_split (s : Str) : s = sgn (s.head? == some '-') ++ (if (s.head? == some '-') = true then s.tail else s) := by
  cases s with
  | nil => rfl
  | cons c s =>
    by_cases hc : c = '-'
    · subst hc; simp [sgn]
    · have : (some c == some '-') = false := by simp [hc]
      simp [sgn, this]

theorem readNum_sound (V : Str → Option Nat) (s : Str) (v : Json) (r : Str) (h : readNum V s = .ok v r) :
    ∃ t, s = t ++ r ∧ JVal V t v := by
  have hsg := sgn_split s
  unfold readNum at h
  dsimp only at h
  generalize hm : (s.head? == some '-') = minus at h hsg
  split at h
  · cases h
  · next i big s1 h1 =>
    split at h
    · cases h
    · next frac s2 h2 =>
      split at h
      · cases h
      · next exp s3 h3 =>
        obtain ⟨n, n1, n2, n3⟩ := intPart_sound _ _ _ _ _ h1
        obtain ⟨f, f1, f2, f3⟩ := fraction_sound _ _ _ h2
        obtain ⟨e, e1, e2, e3⟩ := exponent_sound _ _ _ h3
        have es : s = (sgn minus ++ (dec n ++ (f ++ e))) ++ s3 := by
          rw [hsg, n1, f2, e2]
          simp only [List.append_assoc]
        split at h
        · next hdbl =>
          split at h
          · cases h
          · next d hd =>
            simp only [R.ok.injEq] at h
            obtain ⟨rfl, rfl⟩ := h
            have etake : s.take (s.length - s3.length) = sgn minus ++ (dec n ++ (f ++ e)) := by
              generalize hu : sgn minus ++ (dec n ++ (f ++ e)) = u at es
              rw [es]
              simp
            rw [etake] at hd
            refine ⟨_, es, JVal.dbl minus n f e d f1 e1 ?_ hd⟩
            simp only [Bool.or_eq_true] at hdbl
            rcases hdbl with (hb | hb) | hb
            · exact Or.inl (n3 hb)
            · exact Or.inr (Or.inl (f3.1 hb))
            · exact Or.inr (Or.inr (e3.1 hb))
        · next hdbl =>
          simp only [Bool.or_eq_true, not_or, Bool.not_eq_true] at hdbl
          obtain ⟨⟨hb, hfr⟩, hex⟩ := hdbl
          simp only [R.ok.injEq] at h
          obtain ⟨rfl, rfl⟩ := h
          obtain ⟨rfl, hr⟩ := n2 hb
          have hf : f = [] := by
            rcases f with _ | ⟨x, y⟩
            · rfl
            · exact absurd (f3.2 (by simp)) (by simp [hfr])
          have he : e = [] := by
            rcases e with _ | ⟨x, y⟩
            · rfl
            · exact absurd (e3.2 (by simp)) (by simp [hex])
          refine ⟨sgn minus ++ dec n, by rw [hf, he] at es; simpa using es, JVal.int minus n hr⟩

theorem intPart_complete (minus : Bool) (n : Nat) (rest : Str) (hr : NoDigit rest) :
    ∃ i big r, intPart minus (dec n ++ rest) = some (i, big, r) ∧ (if big then r.dropWhile isDigit else r) = rest ∧
      (big = true ↔ ¬ InRange minus n) ∧ (big = false → i = n) := by
  by_cases hin : InRange minus n
  · have hle : n ≤ if minus then 2 ^ 63 else 2 ^ 64 - 1 := by
      have := (inRange_iff minus n).1 hin
      have n63 : (2 : Nat) ^ 63 = 922337203685477580 * 10 + 8 := by decide
      have n64 : (2 : Nat) ^ 64 - 1 = 1844674407370955161 * 10 + 5 := by decide
      cases minus
      · simp only [maxOf, Bool.false_eq_true, if_false] at this ⊢; omega
      · simp only [maxOf, if_true] at this ⊢; omega
    exact ⟨n, false, rest, intPart_dec minus n rest hr hle, rfl, by simp [hin], fun _ => rfl⟩
  · have hgt : maxOf minus < n := by
      rw [inRange_iff] at hin; omega
    obtain ⟨d, l, e, hd0, hd, hl, hf⟩ := dec_pos n (by omega)
    obtain ⟨h1, h2⟩ := digit_facts d hd
    have hk : ∃ lim last lim2, last < 10 ∧ lim * 10 + last ≤ lim2 * 10 + last ∧ lim2 * 10 + last = maxOf minus ∧ 1 ≤ lim ∧
        (∀ s, (if minus then intLoop 214748364 8 d s else intLoop 429496729 5 d s) = intLoop lim last d s) ∧
        ∀ x : Nat × Bool × Str, wide minus x = if x.2.1 then intLoop lim2 last x.1 x.2.2 else x := by
      cases minus
      · exact ⟨429496729, 5, 1844674407370955161, by omega, by omega, rfl, by omega, fun s => rfl, fun x => rfl⟩
      · exact ⟨214748364, 8, 922337203685477580, by omega, by omega, rfl, by omega, fun s => rfl, fun x => rfl⟩
    obtain ⟨lim, last, lim2, hlast, hle, hmax, hlim, e1, e2⟩ := hk
    obtain ⟨p, l', a1, a2, a3⟩ := intLoop_big lim last hlast l hl d rest (by omega) (by omega)
    have hp : p ≤ lim * 10 + last := by
      obtain ⟨_, _, _, _, h4, _⟩ := intLoop_sound lim last hlast _ d p true _ (by omega) a1
      exact h4
    obtain ⟨p2, l2, b1, b2, b3⟩ := intLoop_big lim2 last hlast l' a3 p rest (by omega) (by omega)
    refine ⟨p2, true, l2.map digitChar ++ rest, ?_, ?_, by simp [hin], by simp⟩
    · rw [e]
      simp only [List.cons_append, intPart]
      rw [if_neg (digitChar_ne_zero d hd hd0).1, h1, if_pos rfl, h2, e1, e2, a1]
      simp only [if_true]
      rw [b1]
    · simp only [if_true]
      have hdw : ∀ m : List Nat, (∀ x ∈ m, x < 10) → (m.map digitChar ++ rest).dropWhile isDigit = rest := by
        intro m hm
        induction m with
        | nil =>
          cases rest with
          | nil => rfl
          | cons c r =>
            have := hr c rfl
            simp [this]
        | cons x m ih =>
          rw [List.map_cons, List.cons_append, List.dropWhile_cons, if_pos (digit_facts x (hm x (by simp))).1]
          exact ih (fun y hy => hm y (by simp [hy]))
      exact hdw l2 b3

theorem digits_drop (u rest : Str) (hu : Digits u) (hr : NoDigit rest) :
    (u ++ rest).dropWhile isDigit = rest ∧ startsDigit (u ++ rest) = true := by
  obtain ⟨hne, hu⟩ := hu
  constructor
  · clear hne
    induction u with
    | nil =>
      cases rest with
      | nil => rfl
      | cons c r =>
        have := hr c rfl
        simp [this]
    | cons x m ih =>
      rw [List.cons_append, List.dropWhile_cons, if_pos (hu x (by simp))]
      exact ih (fun y hy => hu y (by simp [hy]))
  · cases u with
    | nil => exact absurd rfl hne
    | cons x m => exact hu x (by simp)

theorem fraction_complete (f rest : Str) (hf : Frac f) (hr : NoDigit rest) (hdot : rest.head? ≠ some '.') :
    fraction (f ++ rest) = some (decide (f ≠ []), rest) := by
  rcases hf with rfl | ⟨u, rfl, hu⟩
  · unfold fraction
    split
    · next he => rw [List.nil_append] at he; rw [he] at hdot; exact absurd rfl hdot
    · rfl
  · obtain ⟨h1, h2⟩ := digits_drop u rest hu hr
    simp [fraction, h1, h2]

theorem isDigit_sign (c : Char) (h : isDigit c = true) : c ≠ '+' ∧ c ≠ '-' := by
  constructor <;> (rintro rfl; exact absurd h (by decide))

theorem exponent_complete (e rest : Str) (he : Expo e) (hr : Stops rest) :
    exponent (e ++ rest) = some (decide (e ≠ []), rest) := by
  rcases he with rfl | ⟨x, g, u, rfl, hx, hg, hu⟩
  · exact exponent_stops rest hr
  · obtain ⟨h1, h2⟩ := digits_drop u rest hu hr.noDigit
    have hs : expSign (g ++ (u ++ rest)) = u ++ rest := by
      rcases hg with rfl | rfl | rfl
      · cases u with
        | nil => exact absurd rfl hu.1
        | cons y u =>
          have := isDigit_sign y (hu.2 y (by simp))
          unfold expSign
          split
          · next heq => simp only [List.nil_append, List.cons_append, List.cons.injEq] at heq; exact absurd heq.1 this.1
          · next heq => simp only [List.nil_append, List.cons_append, List.cons.injEq] at heq; exact absurd heq.1 this.2
          · rfl
      · rfl
      · rfl
    simp only [List.cons_append, List.append_assoc, exponent]
    rw [if_pos hx, hs, h2, if_pos rfl, h1]
    rfl

theorem dec_head (n : Nat) : ∃ c t, dec n = c :: t ∧ isDigit c = true := by
  by_cases h : n = 0
  · exact ⟨'0', [], by rw [h, dec_zero], by decide⟩
  · obtain ⟨d, l, e, _, hd, _, _⟩ := dec_pos n (by omega)
    exact ⟨_, _, e, (digit_facts d hd).1⟩

theorem stops_frac (f e rest : Str) (hf : Frac f) (he : Expo e) (hr : Stops rest) :
    NoDigit (f ++ (e ++ rest)) ∧ NoDigit (e ++ rest) ∧ (e ++ rest).head? ≠ some '.' := by
  have h2 : NoDigit (e ++ rest) ∧ (e ++ rest).head? ≠ some '.' := by
    rcases he with rfl | ⟨x, g, u, rfl, hx, _⟩
    · exact ⟨hr.noDigit, fun h => (hr _ h).2.1 rfl⟩
    · refine ⟨fun c hc => ?_, ?_⟩
      · simp only [List.cons_append, List.head?_cons, Option.some.injEq] at hc
        subst hc
        rcases hx with rfl | rfl <;> decide
      · simp only [List.cons_append, List.head?_cons, ne_eq, Option.some.injEq]
        rcases hx with rfl | rfl <;> decide
  refine ⟨?_, h2⟩
  rcases hf with rfl | ⟨u, rfl, _⟩
  · exact h2.1
  · intro c hc
    simp only [List.cons_append, List.head?_cons, Option.some.injEq] at hc
    subst hc
    decide

theorem readNum_complete (V : Str → Option Nat) (minus : Bool) (n : Nat) (f e rest : Str) (hf : Frac f) (he : Expo e)
    (hr : Stops rest) :
    readNum V (sgn minus ++ (dec n ++ (f ++ (e ++ rest)))) =
      (if InRange minus n ∧ f = [] ∧ e = [] then .ok (.num (if minus then -(n : Int) else n)) rest
       else match V (sgn minus ++ (dec n ++ (f ++ e))) with
        | none => .err
        | some d => .ok (.dbl d) rest) := by
  obtain ⟨n1, n2, n3⟩ := stops_frac f e rest hf he hr
  obtain ⟨i, big, r, i1, i2, i3, i4⟩ := intPart_complete minus n (f ++ (e ++ rest)) n1
  have hhead : ((sgn minus ++ (dec n ++ (f ++ (e ++ rest)))).head? == some '-') = minus := by
    obtain ⟨c, t, ec, hc⟩ := dec_head n
    cases minus
    · rw [ec]
      simp [sgn, (isDigit_sign c hc).2]
    · simp [sgn]
  have htail : (if minus = true then (sgn minus ++ (dec n ++ (f ++ (e ++ rest)))).tail
      else sgn minus ++ (dec n ++ (f ++ (e ++ rest)))) = dec n ++ (f ++ (e ++ rest)) := by
    cases minus <;> simp [sgn]
  have htake : (sgn minus ++ (dec n ++ (f ++ (e ++ rest)))).take
      ((sgn minus ++ (dec n ++ (f ++ (e ++ rest)))).length - rest.length) = sgn minus ++ (dec n ++ (f ++ e)) := by
    have : sgn minus ++ (dec n ++ (f ++ (e ++ rest))) = (sgn minus ++ (dec n ++ (f ++ e))) ++ rest := by
      simp only [List.append_assoc]
    rw [this]
    generalize sgn minus ++ (dec n ++ (f ++ e)) = u
    simp
  unfold readNum
  dsimp only
  rw [hhead, htail, i1]
  dsimp only
  rw [i2, fraction_complete f _ hf n2 n3]
  dsimp only
  rw [exponent_complete e rest he hr]
  dsimp only
  rw [htake]
  by_cases hc : InRange minus n ∧ f = [] ∧ e = []
  · obtain ⟨c1, c2, c3⟩ := hc
    have hb : big = false := by
      cases hbig : big
      · rfl
      · exact absurd c1 (i3.1 hbig)
    subst c2
    subst c3
    rw [hb, i4 hb]
    simp [c1, signed]
  · have hor : (big || decide (f ≠ []) || decide (e ≠ [])) = true := by
      simp only [Bool.or_eq_true, decide_eq_true_eq]
      by_cases h1 : InRange minus n
      · by_cases h2 : f = []
        · exact Or.inr (fun h3 => hc ⟨h1, h2, h3⟩)
        · exact Or.inl (Or.inr h2)
      · exact Or.inl (Or.inl (i3.2 h1))
    rw [if_pos hor, if_neg hc]
    rfl

/-! ## Values -/

/-- What a value may begin with. -/
theorem jval_head (V : Str → Option Nat) (t : Str) (j : Json) (h : JVal V t j) :
    ∃ c u, t = c :: u ∧ isWs c = false ∧ c ≠ ']' ∧ c ≠ '}' ∧ c ≠ '\x00' := by
  have hnum : ∀ (minus : Bool) (n : Nat) (x : Str), ∃ c u, sgn minus ++ (dec n ++ x) = c :: u ∧ isWs c = false ∧ c ≠ ']' ∧
      c ≠ '}' ∧ c ≠ '\x00' := by
    intro minus n x
    cases minus
    · obtain ⟨c, u, e, hc⟩ := dec_head n
      rw [e]
      obtain ⟨e1, e2⟩ := digitChar_of c hc
      have : ∀ d : Fin 10, isWs (digitChar d.val) = false ∧ digitChar d.val ≠ ']' ∧ digitChar d.val ≠ '}' ∧
          digitChar d.val ≠ '\x00' := by decide +kernel
      have := this ⟨_, e2⟩
      rw [e1] at this
      exact ⟨c, _, rfl, this⟩
    · exact ⟨'-', _, rfl, by decide, by decide, by decide, by decide⟩
  cases h with
  | null => exact ⟨'n', _, rfl, by decide, by decide, by decide, by decide⟩
  | true => exact ⟨'t', _, rfl, by decide, by decide, by decide, by decide⟩
  | false => exact ⟨'f', _, rfl, by decide, by decide, by decide, by decide⟩
  | int minus n _ =>
    have := hnum minus n []
    rwa [List.append_nil] at this
  | dbl minus n f e d _ _ _ _ => exact hnum minus n _
  | str t s _ => exact ⟨'"', _, rfl, by decide, by decide, by decide, by decide⟩
  | arr0 w _ => exact ⟨'[', _, rfl, by decide, by decide, by decide, by decide⟩
  | arr t l _ => exact ⟨'[', _, rfl, by decide, by decide, by decide, by decide⟩
  | obj0 w _ => exact ⟨'{', _, rfl, by decide, by decide, by decide, by decide⟩
  | obj t l _ => exact ⟨'{', _, rfl, by decide, by decide, by decide, by decide⟩

theorem skipWs_val (V : Str → Option Nat) (t : Str) (j : Json) (h : JVal V t j) (w rest : Str) (hw : Ws w) :
    skipWs (w ++ (t ++ rest)) = t ++ rest := by
  obtain ⟨c, u, rfl, hc, _⟩ := jval_head V t j h
  rw [skipWs_append w _ hw, List.cons_append, skipWs_cons c _ hc]

theorem skipWs_char (w : Str) (hw : Ws w) (c : Char) (hc : isWs c = false) (rest : Str) :
    skipWs (w ++ c :: rest) = c :: rest := by
  rw [skipWs_append w _ hw, skipWs_cons c _ hc]

theorem stops_ws (w : Str) (hw : Ws w) (c : Char) (h : c = ',' ∨ c = ']' ∨ c = '}') (rest : Str) :
    Stops (w ++ c :: rest) := by
  cases w with
  | nil => exact stops_of c rest h
  | cons x w =>
    intro y hy
    simp only [List.cons_append, List.head?_cons, Option.some.injEq] at hy
    subst hy
    rcases hw x (by simp) with rfl | rfl | rfl | rfl <;> decide

theorem JElems.ws {V : Str → Option Nat} {t : Str} {l : List Json} (h : JElems V t l) (w : Str) (hw : Ws w) :
    JElems V (w ++ t) l := by
  cases h with
  | one a t b v ha hv hb => rw [← List.append_assoc]; exact JElems.one _ t b v (hw.append ha) hv hb
  | more a t b v t' l ha hv hb hr => rw [← List.append_assoc]; exact JElems.more _ t b v t' l (hw.append ha) hv hb hr

theorem Key.ws {t k : Str} (h : Key t k) (w : Str) (hw : Ws w) : Key (w ++ t) k := by
  obtain ⟨a, ks, b, c, ha, hk, hb, hc, rfl⟩ := h
  exact ⟨w ++ a, ks, b, c, hw.append ha, hk, hb, hc, by simp⟩

theorem JMembers.ws {V : Str → Option Nat} {t : Str} {l : List (Str × Json)} (h : JMembers V t l) (w : Str) (hw : Ws w) :
    JMembers V (w ++ t) l := by
  cases h with
  | one a k t b v ha hv hb => rw [← List.append_assoc]; exact JMembers.one _ k t b v (ha.ws w hw) hv hb
  | more a k t b v t' l ha hv hb hr => rw [← List.append_assoc]; exact JMembers.more _ k t b v t' l (ha.ws w hw) hv hb hr

/-- What is read is a value of the grammar, not deeper than the stack. -/
def Sound (V : Str → Option Nat) (d : Nat) (pv : Str → R Json) : Prop :=
  ∀ s v r, pv s = .ok v r → depth v ≤ d ∧ ∃ t, s = t ++ r ∧ JVal V t v

theorem bind_ok {α β : Type} {x : R α} {f : α → Str → R β} {v : β} {r : Str} (h : x.bind f = .ok v r) :
    ∃ a s, x = .ok a s ∧ f a s = .ok v r := by
  cases x with
  | ok a s => exact ⟨a, s, rfl, h⟩
  | err => simp [R.bind] at h
  | deep => simp [R.bind] at h
  | stuck => simp [R.bind] at h

theorem elems_sound (V : Str → Option Nat) (d : Nat) (pv : Str → R Json) (hpv : Sound V d pv) (n : Nat) (s : Str)
    (l : List Json) (r : Str) (h : elems pv n s = .ok l r) :
    depthL l ≤ d ∧ ∃ t, s = t ++ ']' :: r ∧ JElems V t l := by
  induction n generalizing s l with
  | zero => simp [elems] at h
  | succ n ih =>
    rw [elems] at h
    replace h := bind_ok h
    obtain ⟨v, s1, e1, h⟩ := h
    obtain ⟨hd, t, rfl, hv⟩ := hpv _ _ _ e1
    obtain ⟨b, hb, eb⟩ := skipWs_split s1
    split at h
    · next s2 he =>
      replace h := bind_ok h
      obtain ⟨l', r', e2, h⟩ := h
      cases h
      obtain ⟨hd', t', e3, hl⟩ := ih _ _ e2
      obtain ⟨a, ha, ea⟩ := skipWs_split s2
      refine ⟨by simp only [depthL]; omega, t ++ (b ++ ',' :: (a ++ t')), ?_, ?_⟩
      · rw [eb, he, ea, e3]
        simp
      · have := JElems.more [] t b v (a ++ t') l' Ws.nil hv hb (hl.ws a ha)
        simpa using this
    · next s2 he =>
      cases h
      refine ⟨by simp only [depthL]; omega, t ++ b, ?_, ?_⟩
      · rw [eb, he]
        simp
      · have := JElems.one [] t b v Ws.nil hv hb
        simpa using this
    · cases h

theorem readKey_sound (s k r : Str) (h : readKey s = .ok k r) : ∃ t, s = t ++ r ∧ Key t k := by
  unfold readKey at h
  split at h
  · next s1 =>
    replace h := bind_ok h
    obtain ⟨k', s2, e1, h⟩ := h
    obtain ⟨ks, rfl, hk⟩ := readStr_sound _ _ _ _ e1
    obtain ⟨b, hb, eb⟩ := skipWs_split s2
    split at h
    · next s3 he =>
      cases h
      obtain ⟨c, hc, ec⟩ := skipWs_split s3
      refine ⟨'"' :: (ks ++ '"' :: (b ++ ':' :: c)), ?_, [], ks, b, c, Ws.nil, hk, hb, hc, rfl⟩
      generalize skipWs s3 = z at ec
      rw [eb, he, ec]
      simp
    · cases h
  · cases h

theorem members_sound (V : Str → Option Nat) (d : Nat) (pv : Str → R Json) (hpv : Sound V d pv) (n : Nat) (s : Str)
    (l : List (Str × Json)) (r : Str) (h : members pv n s = .ok l r) :
    depthM l ≤ d ∧ ∃ t, s = t ++ '}' :: r ∧ JMembers V t l := by
  induction n generalizing s l with
  | zero => simp [members] at h
  | succ n ih =>
    rw [members] at h
    replace h := bind_ok h
    obtain ⟨k, s0, e0, h⟩ := h
    obtain ⟨kt, rfl, hk⟩ := readKey_sound _ _ _ e0
    replace h := bind_ok h
    obtain ⟨v, s1, e1, h⟩ := h
    obtain ⟨hd, t, rfl, hv⟩ := hpv _ _ _ e1
    obtain ⟨b, hb, eb⟩ := skipWs_split s1
    split at h
    · next s2 he =>
      replace h := bind_ok h
      obtain ⟨l', r', e2, h⟩ := h
      cases h
      obtain ⟨hd', t', e3, hl⟩ := ih _ _ e2
      obtain ⟨a, ha, ea⟩ := skipWs_split s2
      refine ⟨by simp only [depthM]; omega, kt ++ (t ++ (b ++ ',' :: (a ++ t'))), ?_,
        JMembers.more kt k t b v (a ++ t') l' hk hv hb (hl.ws a ha)⟩
      rw [eb, he, ea, e3]
      simp
    · next s2 he =>
      cases h
      refine ⟨by simp only [depthM]; omega, kt ++ (t ++ b), ?_, JMembers.one kt k t b v hk hv hb⟩
      rw [eb, he]
      simp
    · cases h

theorem word_sound (w : Str) (v x : Json) (s r : Str) (h : word w v s = .ok x r) : x = v ∧ s = w ++ r := by
  unfold word at h
  split at h
  · next hp =>
    cases h
    obtain ⟨t, rfl⟩ := List.isPrefixOf_iff_prefix.1 hp
    exact ⟨rfl, by simp⟩
  · cases h

theorem readVal_sound (V : Str → Option Nat) (d : Nat) : Sound V d (readVal V d) := by
  induction d with
  | zero => intro s v r h; simp [readVal] at h
  | succ d ih =>
    intro s v r h
    unfold readVal at h
    split at h
    · obtain ⟨rfl, rfl⟩ := word_sound _ _ _ _ _ h
      exact ⟨by simp [depth], "null".toList, by simp, JVal.null⟩
    · obtain ⟨rfl, rfl⟩ := word_sound _ _ _ _ _ h
      exact ⟨by simp [depth], "true".toList, by simp, JVal.true⟩
    · obtain ⟨rfl, rfl⟩ := word_sound _ _ _ _ _ h
      exact ⟨by simp [depth], "false".toList, by simp, JVal.false⟩
    · next s1 =>
      replace h := bind_ok h
      obtain ⟨t, s2, e1, h⟩ := h
      cases h
      obtain ⟨ks, rfl, hk⟩ := readStr_sound _ _ _ _ e1
      exact ⟨by simp [depth], '"' :: (ks ++ ['"']), by simp, JVal.str ks t hk⟩
    · next s1 =>
      unfold readObj at h
      obtain ⟨w, hw, ew⟩ := skipWs_split s1
      split at h
      · next s2 he =>
        cases h
        exact ⟨by simp [depth, depthM], '{' :: (w ++ ['}']), by rw [ew, he]; simp, JVal.obj0 w hw⟩
      · replace h := bind_ok h
        obtain ⟨l, s2, e1, h⟩ := h
        cases h
        obtain ⟨hd, t, e2, hl⟩ := members_sound V d _ ih _ _ _ _ e1
        exact ⟨by simp only [depth]; omega, '{' :: ((w ++ t) ++ ['}']), by rw [ew, e2]; simp,
          JVal.obj _ l (hl.ws w hw)⟩
    · next s1 =>
      unfold readArr at h
      obtain ⟨w, hw, ew⟩ := skipWs_split s1
      split at h
      · next s2 he =>
        cases h
        exact ⟨by simp [depth, depthL], '[' :: (w ++ [']']), by rw [ew, he]; simp, JVal.arr0 w hw⟩
      · replace h := bind_ok h
        obtain ⟨l, s2, e1, h⟩ := h
        cases h
        obtain ⟨hd, t, e2, hl⟩ := elems_sound V d _ ih _ _ _ _ e1
        exact ⟨by simp only [depth]; omega, '[' :: ((w ++ t) ++ [']']), by rw [ew, e2]; simp,
          JVal.arr _ l (hl.ws w hw)⟩
    · obtain ⟨t, e, hv⟩ := readNum_sound V _ _ _ h
      refine ⟨?_, t, e, hv⟩
      have : depth v = 1 := by
        unfold readNum at h
        dsimp only at h
        split at h
        · cases h
        · split at h
          · cases h
          · split at h
            · cases h
            · split at h
              · split at h
                · cases h
                · cases h; rfl
              · cases h; rfl
      omega

/-- Every value of the grammar that is not too deep is read. -/
def Complete (V : Str → Option Nat) (d : Nat) (pv : Str → R Json) : Prop :=
  ∀ t j, JVal V t j → depth j ≤ d → ∀ rest, Stops rest → pv (t ++ rest) = .ok j rest

theorem elems_complete (V : Str → Option Nat) (d : Nat) (pv : Str → R Json) (hpv : Complete V d pv) (l : List Json) :
    ∀ t, JElems V t l → depthL l ≤ d → ∀ n, l.length ≤ n → ∀ rest,
      elems pv n (skipWs (t ++ ']' :: rest)) = .ok l rest := by
  induction l with
  | nil => intro t h; cases h
  | cons v l ih =>
    intro t h hd n hn rest
    obtain ⟨n, rfl⟩ : ∃ m, n = m + 1 := ⟨n - 1, by simp at hn; omega⟩
    simp only [depthL] at hd
    cases h with
    | one a t b _ ha hv hb =>
      have e : a ++ (t ++ b) ++ ']' :: rest = a ++ (t ++ (b ++ ']' :: rest)) := by simp
      rw [e, skipWs_val V t v hv _ _ ha, elems, hpv t v hv (by omega) _ (stops_ws b hb _ (by simp) _)]
      simp only [R.bind]
      rw [skipWs_char b hb ']' (by decide)]
      rfl
    | more a t b _ t' _ ha hv hb hl =>
      have e : a ++ (t ++ (b ++ ',' :: t')) ++ ']' :: rest = a ++ (t ++ (b ++ ',' :: (t' ++ ']' :: rest))) := by simp
      rw [e, skipWs_val V t v hv _ _ ha, elems, hpv t v hv (by omega) _ (stops_ws b hb _ (by simp) _)]
      simp only [R.bind]
      rw [skipWs_char b hb ',' (by decide)]
      simp only []
      rw [ih t' hl (by omega) n (by simp at hn; omega) rest]

theorem readKey_complete (t k : Str) (h : Key t k) (V : Str → Option Nat) (u : Str) (v : Json) (hv : JVal V u v) (rest : Str) :
    readKey (skipWs (t ++ (u ++ rest))) = .ok k (u ++ rest) := by
  obtain ⟨a, ks, b, c, ha, hk, hb, hc, rfl⟩ := h
  have e : a ++ '"' :: (ks ++ '"' :: (b ++ ':' :: c)) ++ (u ++ rest) =
      a ++ '"' :: (ks ++ '"' :: (b ++ ':' :: (c ++ (u ++ rest)))) := by simp
  rw [e, skipWs_char a ha '"' (by decide)]
  simp only [readKey]
  rw [readStr_complete ks k hk]
  simp only [R.bind]
  rw [skipWs_char b hb ':' (by decide)]
  simp only []
  rw [skipWs_val V u v hv _ _ hc]

theorem members_complete (V : Str → Option Nat) (d : Nat) (pv : Str → R Json) (hpv : Complete V d pv)
    (l : List (Str × Json)) : ∀ t, JMembers V t l → depthM l ≤ d → ∀ n, l.length ≤ n → ∀ rest,
      members pv n (skipWs (t ++ '}' :: rest)) = .ok l rest := by
  induction l with
  | nil => intro t h; cases h
  | cons x l ih =>
    obtain ⟨k, v⟩ := x
    intro t h hd n hn rest
    obtain ⟨n, rfl⟩ : ∃ m, n = m + 1 := ⟨n - 1, by simp at hn; omega⟩
    simp only [depthM] at hd
    cases h with
    | one a _ t b _ ha hv hb =>
      have e : a ++ (t ++ b) ++ '}' :: rest = a ++ (t ++ (b ++ '}' :: rest)) := by simp
      rw [e, members, readKey_complete a k ha V t v hv]
      simp only [R.bind]
      rw [hpv t v hv (by omega) _ (stops_ws b hb _ (by simp) _)]
      simp only []
      rw [skipWs_char b hb '}' (by decide)]
      rfl
    | more a _ t b _ t' _ ha hv hb hl =>
      have e : a ++ (t ++ (b ++ ',' :: t')) ++ '}' :: rest = a ++ (t ++ (b ++ ',' :: (t' ++ '}' :: rest))) := by simp
      rw [e, members, readKey_complete a k ha V t v hv]
      simp only [R.bind]
      rw [hpv t v hv (by omega) _ (stops_ws b hb _ (by simp) _)]
      simp only []
      rw [skipWs_char b hb ',' (by decide)]
      simp only []
      rw [ih t' hl (by omega) n (by simp at hn; omega) rest]

/-- There are at most as many elements as characters. -/
theorem jelems_length (V : Str → Option Nat) (l : List Json) : ∀ t, JElems V t l → ∀ w rest, Ws w →
    l.length ≤ (skipWs (w ++ (t ++ rest))).length := by
  induction l with
  | nil => intro t h; cases h
  | cons v l ih =>
    intro t h w rest hw
    cases h with
    | one a t b _ ha hv hb =>
      obtain ⟨c, u, e, _⟩ := jval_head V t v hv
      have e2 : w ++ (a ++ (t ++ b) ++ rest) = (w ++ a) ++ (t ++ (b ++ rest)) := by simp
      rw [e2, skipWs_val V t v hv _ _ (hw.append ha)]
      simp [e]
    | more a t b _ t' _ ha hv hb hl =>
      obtain ⟨c, u, e, _⟩ := jval_head V t v hv
      have e2 : w ++ (a ++ (t ++ (b ++ ',' :: t')) ++ rest) = (w ++ a) ++ (t ++ (b ++ ',' :: (t' ++ rest))) := by simp
      have := ih t' hl [] rest Ws.nil
      have h3 := (skipWs_suffix ([] ++ (t' ++ rest))).length_le
      rw [e2, skipWs_val V t v hv _ _ (hw.append ha)]
      simp only [List.nil_append, List.length_append, List.length_cons] at this h3 ⊢
      rw [e]
      simp only [List.length_cons]
      omega

theorem jmembers_length (V : Str → Option Nat) (l : List (Str × Json)) : ∀ t, JMembers V t l → ∀ w rest, Ws w →
    l.length ≤ (skipWs (w ++ (t ++ rest))).length := by
  induction l with
  | nil => intro t h; cases h
  | cons x l ih =>
    obtain ⟨k, v⟩ := x
    intro t h w rest hw
    cases h with
    | one a _ t b _ ha hv hb =>
      obtain ⟨a', ks, b', c', ha', _, _, _, rfl⟩ := ha
      have e2 : w ++ (a' ++ '"' :: (ks ++ '"' :: (b' ++ ':' :: c')) ++ (t ++ b) ++ rest) =
          (w ++ a') ++ '"' :: (ks ++ '"' :: (b' ++ ':' :: c') ++ (t ++ (b ++ rest))) := by simp
      rw [e2, skipWs_char _ (hw.append ha') '"' (by decide)]
      simp
    | more a _ t b _ t' _ ha hv hb hl =>
      obtain ⟨a', ks, b', c', ha', _, _, _, rfl⟩ := ha
      have e2 : w ++ (a' ++ '"' :: (ks ++ '"' :: (b' ++ ':' :: c')) ++ (t ++ (b ++ ',' :: t')) ++ rest) =
          (w ++ a') ++ '"' :: (ks ++ '"' :: (b' ++ ':' :: c') ++ (t ++ (b ++ ',' :: (t' ++ rest)))) := by simp
      have := ih t' hl [] rest Ws.nil
      have h3 := (skipWs_suffix ([] ++ (t' ++ rest))).length_le
      rw [e2, skipWs_char _ (hw.append ha') '"' (by decide)]
      simp only [List.nil_append, List.length_append, List.length_cons] at this h3 ⊢
      omega

theorem jelems_head (V : Str → Option Nat) (t : Str) (l : List Json) (h : JElems V t l) (rest : Str) :
    (skipWs (t ++ rest)).head? ≠ some ']' := by
  cases h with
  | one a t b v ha hv hb =>
    obtain ⟨c, u, e, _, hc, _⟩ := jval_head V t v hv
    have e2 : a ++ (t ++ b) ++ rest = a ++ (t ++ (b ++ rest)) := by simp
    rw [e2, skipWs_val V t v hv _ _ ha, e]
    simp [hc]
  | more a t b v t' l ha hv hb hl =>
    obtain ⟨c, u, e, _, hc, _⟩ := jval_head V t v hv
    have e2 : a ++ (t ++ (b ++ ',' :: t')) ++ rest = a ++ (t ++ (b ++ ',' :: (t' ++ rest))) := by simp
    rw [e2, skipWs_val V t v hv _ _ ha, e]
    simp [hc]

theorem jmembers_head (V : Str → Option Nat) (t : Str) (l : List (Str × Json)) (h : JMembers V t l) (rest : Str) :
    (skipWs (t ++ rest)).head? ≠ some '}' := by
  have key : ∀ a k x, Key a k → (skipWs (a ++ x)).head? ≠ some '}' := by
    rintro a k x ⟨a', ks, b', c', ha', _, _, _, rfl⟩
    have e2 : a' ++ '"' :: (ks ++ '"' :: (b' ++ ':' :: c')) ++ x = a' ++ '"' :: (ks ++ '"' :: (b' ++ ':' :: c') ++ x) := by simp
    rw [e2, skipWs_char _ ha' '"' (by decide)]
    simp
  cases h with
  | one a k t b v ha hv hb => rw [List.append_assoc]; exact key a k _ ha
  | more a k t b v t' l ha hv hb hl => rw [List.append_assoc]; exact key a k _ ha

theorem skipWs_idem (s : Str) : skipWs (skipWs s) = skipWs s := by
  unfold skipWs
  induction s with
  | nil => rfl
  | cons c s ih =>
    by_cases h : isWs c = true
    · simp [h, ih]
    · simp [h]

theorem readArr_else (pv : Str → R Json) (s : Str) (h : (skipWs s).head? ≠ some ']') :
    readArr pv s = (elems pv ((skipWs s).length + 1) (skipWs s)).bind fun l r => .ok (.arr l) r := by
  unfold readArr
  split
  · next he => rw [he] at h; exact absurd rfl h
  · rfl

theorem readObj_else (pv : Str → R Json) (s : Str) (h : (skipWs s).head? ≠ some '}') :
    readObj pv s = (members pv ((skipWs s).length + 1) (skipWs s)).bind fun l r => .ok (.obj l) r := by
  unfold readObj
  split
  · next he => rw [he] at h; exact absurd rfl h
  · rfl

theorem readVal_complete (V : Str → Option Nat) (d : Nat) : Complete V d (readVal V d) := by
  induction d with
  | zero => intro t j _ hd; cases j <;> simp [depth] at hd
  | succ d ih =>
    intro t j h hd rest hr
    have hnum : ∀ (minus : Bool) (n : Nat) (x : Str), readVal V (d + 1) (sgn minus ++ (dec n ++ x)) =
        readNum V (sgn minus ++ (dec n ++ x)) := by
      intro minus n x
      cases minus
      · obtain ⟨c, u, e, hc⟩ := dec_head n
        rw [e]
        exact readVal_num V d c _ (Or.inr hc)
      · exact readVal_num V d '-' _ (Or.inl rfl)
    cases h with
    | null => simp [readVal, word]
    | true => simp [readVal, word]
    | false => simp [readVal, word]
    | int minus n hn =>
      have e : sgn minus ++ dec n ++ rest = sgn minus ++ (dec n ++ ([] ++ ([] ++ rest))) := by simp
      rw [e, hnum, readNum_complete V minus n [] [] rest (Or.inl rfl) (Or.inl rfl) hr, if_pos ⟨hn, rfl, rfl⟩]
    | dbl minus n f e x hf he hne hV =>
      have e2 : sgn minus ++ (dec n ++ (f ++ e)) ++ rest = sgn minus ++ (dec n ++ (f ++ (e ++ rest))) := by simp
      rw [e2, hnum, readNum_complete V minus n f e rest hf he hr, if_neg, hV]
      rintro ⟨h1, h2, h3⟩
      rcases hne with hne | hne | hne
      · exact hne h1
      · exact hne h2
      · exact hne h3
    | str t s hs =>
      have e : '"' :: (t ++ ['"']) ++ rest = '"' :: (t ++ '"' :: rest) := by simp
      rw [e]
      show (readStr .plain (t ++ '"' :: rest)).bind _ = _
      rw [readStr_complete t s hs]
      rfl
    | arr0 w hw =>
      have e : '[' :: (w ++ [']']) ++ rest = '[' :: (w ++ ']' :: rest) := by simp
      rw [e]
      show readArr (readVal V d) (w ++ ']' :: rest) = _
      unfold readArr
      rw [skipWs_char w hw ']' (by decide)]
      rfl
    | arr t l hl =>
      have e : '[' :: (t ++ [']']) ++ rest = '[' :: (t ++ ']' :: rest) := by simp
      rw [e]
      show readArr (readVal V d) (t ++ ']' :: rest) = _
      rw [readArr_else _ _ (jelems_head V t l hl _)]
      have hlen := jelems_length V l t hl [] (']' :: rest) Ws.nil
      rw [List.nil_append] at hlen
      have hdl : depthL l ≤ d := by simp only [depth] at hd; omega
      rw [elems_complete V d _ ih l t hl hdl _ (by omega) rest]
      rfl
    | obj0 w hw =>
      have e : '{' :: (w ++ ['}']) ++ rest = '{' :: (w ++ '}' :: rest) := by simp
      rw [e]
      show readObj (readVal V d) (w ++ '}' :: rest) = _
      unfold readObj
      rw [skipWs_char w hw '}' (by decide)]
      rfl
    | obj t l hl =>
      have e : '{' :: (t ++ ['}']) ++ rest = '{' :: (t ++ '}' :: rest) := by simp
      rw [e]
      show readObj (readVal V d) (t ++ '}' :: rest) = _
      rw [readObj_else _ _ (jmembers_head V t l hl _)]
      have hlen := jmembers_length V l t hl [] ('}' :: rest) Ws.nil
      rw [List.nil_append] at hlen
      have hdl : depthM l ≤ d := by simp only [depth] at hd; omega
      rw [members_complete V d _ ih l t hl hdl _ (by omega) rest]
      rfl

theorem atEnd_iff (s : Str) : atEnd s = true ↔ s = [] ∨ ∃ r, s = '\x00' :: r := by
  cases s with
  | nil => simp [atEnd]
  | cons c s => simp [atEnd]

/-- C119: a text is read as a document exactly if the grammar says that it denotes this document, and the document is
not deeper than the stack allows. -/
theorem C119 (V : Str → Option Nat) (room : Nat) (s : Str) (j : Json) :
    parse V room s = .ok j [] ↔ depth j ≤ room ∧ JText V s j := by
  constructor
  · intro h
    unfold parse at h
    split at h
    · cases h
    · replace h := bind_ok h
      obtain ⟨v, r, e, h⟩ := h
      split at h
      · next hend =>
        cases h
        obtain ⟨hd, t, e2, hv⟩ := readVal_sound V room _ _ _ e
        obtain ⟨a, ha, ea⟩ := skipWs_split s
        obtain ⟨b, hb, eb⟩ := skipWs_split r
        refine ⟨hd, a, t, b, skipWs r, ?_, ha, hv, hb, (atEnd_iff _).1 hend⟩
        generalize skipWs r = z at eb
        rw [ea, e2, eb]
      · cases h
  · rintro ⟨hd, a, t, b, e, rfl, ha, hv, hb, he⟩
    obtain ⟨c, u, ec, hc, _, _, hnul⟩ := jval_head V t j hv
    have hws : Stops (b ++ e) := by
      cases b with
      | nil =>
        rcases he with rfl | ⟨r, rfl⟩
        · intro c hc; cases hc
        · intro c hc
          simp only [List.nil_append, List.head?_cons, Option.some.injEq] at hc
          subst hc
          decide
      | cons x b =>
        intro y hy
        simp only [List.cons_append, List.head?_cons, Option.some.injEq] at hy
        subst hy
        rcases hb x (by simp) with rfl | rfl | rfl | rfl <;> decide
    have hskip : skipWs (b ++ e) = e := by
      rw [skipWs_append b e hb]
      rcases he with rfl | ⟨r, rfl⟩
      · rfl
      · exact skipWs_cons _ _ (by decide)
    unfold parse
    rw [skipWs_val V t j hv _ _ ha, readVal_complete V room t j hv hd _ hws]
    have h1 : atEnd (t ++ (b ++ e)) = false := by rw [ec]; simp [atEnd, hnul]
    have h2 : atEnd e = true := (atEnd_iff e).2 he
    rw [h1]
    simp [R.bind, hskip, h2]

/-- A text denotes at most one document. -/
theorem C119_unique (V : Str → Option Nat) (s : Str) (j k : Json) (hj : JText V s j) (hk : JText V s k) : j = k := by
  have h1 := (C119 V (max (depth j) (depth k)) s j).2 ⟨by omega, hj⟩
  have h2 := (C119 V (max (depth j) (depth k)) s k).2 ⟨by omega, hk⟩
  rw [h1] at h2
  cases h2
  rfl

/-- Every other text is refused, if the stack suffices: the outcome is a parse error. -/
theorem C119_refused (V : Str → Option Nat) (room : Nat) (s : Str) (hb : brackets s < room) (h : ¬ ∃ j, JText V s j) :
    parse V room s = .err := by
  have h1 := C117_partial V room s hb
  have h2 := C117_ends V room s
  cases e : parse V room s with
  | ok j r =>
    have hr : r = [] := by
      unfold parse at e
      split at e
      · cases e
      · replace e := bind_ok e
        obtain ⟨v, x, _, e⟩ := e
        split at e
        · cases e; rfl
        · cases e
    subst hr
    exact absurd ⟨j, ((C119 V room s j).1 e).2⟩ h
  | err => rfl
  | deep => exact absurd e h1
  | stuck => exact absurd e h2

/-- What the writer writes is a text of the grammar. -/
theorem C119_written (D : Nat → Option Str) (V : Str → Option Nat) (j : Json) (h : Fits j) : JText V (write D j) j :=
  ((C119 V (depth j) _ j).1 (C116 D V j h (depth j) (Nat.le_refl _))).2

/-- The bytes of a character are those of Lean's own UTF-8 encoding. -/
theorem C119_utf8 (c : Char) : (utf8 c.toNat).map Char.toNat = (String.utf8EncodeChar c).map UInt8.toNat := by
  have hv : c.toNat < 0x110000 := by
    have := c.valid
    rcases this with h | h
    · have : c.toNat < 0xD800 := h
      omega
    · exact h.2
  have hc : ∀ n : Nat, n < 256 → (Char.ofNat n).toNat = n := by
    intro n hn
    have : ∀ i : Fin 256, (Char.ofNat i.val).toNat = i.val := by decide +kernel
    exact this ⟨n, hn⟩
  have e : c.val.toNat = c.toNat := rfl
  rw [String.utf8EncodeChar.eq_1, e]
  generalize c.toNat = n at hv
  unfold utf8
  split
  · simp only [List.map_cons, List.map_nil, UInt8.toNat_ofNat']
    rw [hc _ (by omega)]
    congr 1; omega
  · split
    · simp only [List.map_cons, List.map_nil, UInt8.toNat_ofNat']
      rw [hc _ (by omega), hc _ (by omega)]
      congr 1
      · omega
      · congr 1; omega
    · split
      · simp only [List.map_cons, List.map_nil, UInt8.toNat_ofNat']
        rw [hc _ (by omega), hc _ (by omega), hc _ (by omega)]
        congr 1
        · omega
        · congr 1
          · omega
          · congr 1; omega
      · simp only [List.map_cons, List.map_nil, UInt8.toNat_ofNat']
        rw [hc _ (by omega), hc _ (by omega), hc _ (by omega), hc _ (by omega)]
        congr 1
        · omega
        · congr 1
          · omega
          · congr 1
            · omega
            · congr 1; omega

/-- The two halves for a code point above the 16-bit range, as UTF-16 defines them, give it back. -/
theorem C119_pair (n : Nat) (h : 0x10000 ≤ n) :
    surrogates (0xD800 + (n - 0x10000) / 0x400) (0xDC00 + (n - 0x10000) % 0x400) = n := by
  unfold surrogates
  omega

/-- Non-vacuity: a number in exponent form is one of the others, a lone first half of a surrogate pair is refused, a
pair is one character of four bytes, and leading zeros, trailing commas, missing quotes and trailing text are refused. -/
example : (match parse (fun s => if s = "-1.5E+2".toList then some 9 else none) 2 "[-1.5E+2]".toList with
  | .ok (.arr [.dbl 9]) _ => true | _ => false) = true := by decide +kernel
example : (match parse (fun _ => none) 2 "\"\\uD83D\\uDE00\"".toList with
  | .ok (.str s) _ => decide (s.map Char.toNat = [240, 159, 152, 128]) | _ => false) = true := by decide +kernel
example : ["\"\\uD83D\"", "01", "[1,]", "{a:1}", "{\"a\":1,}", "1 2", "", "nul", "-", "1.", "1e", "\"a", "[1", "18446744073709551616"].all
    (fun s => match parse (fun _ => none) 9 s.toList with | .err => true | _ => false) = true := by decide +kernel

end Verif.JsonText
