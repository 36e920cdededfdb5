import Verif.Props.JsonGrammar

/-!
C163: the strings of a JSON text in UTF-8 are the characters that are written or denoted by escapes, in UTF-8.

The characters are those of Unicode and their encoding is that of Lean's library (`String.utf8EncodeChar`), not that of the model.
-/
namespace Verif.JsonText
open Verif.Ipc (Str Json)

/-- The bytes of a character in UTF-8, one character for each as in the texts of the model. -/
def enc (c : Char) : Str := (String.utf8EncodeChar c).map fun b => Char.ofNat b.toNat

def encAll (cs : List Char) : Str := cs.flatMap enc

/-- The inside of a string and the characters it stands for, RFC 8259 section 7. -/
inductive Body : Str → List Char → Prop
  | nil : Body [] []
  | plain (c : Char) (t : Str) (s : List Char) : 32 ≤ c.toNat → c ≠ '"' → c ≠ '\\' → Body t s → Body (enc c ++ t) (c :: s)
  | esc (c e : Char) (t : Str) (s : List Char) : (c, e) ∈ escapes → Body t s → Body ('\\' :: c :: t) (e :: s)
  | uni (h : Str) (c : Char) (t : Str) (s : List Char) : Hex4 h c.toNat → Body t s → Body ('\\' :: 'u' :: (h ++ t)) (c :: s)
  | pair (h g : Str) (n m : Nat) (c : Char) (t : Str) (s : List Char) : Hex4 h n → 0xD800 ≤ n → n ≤ 0xDBFF → Hex4 g m → 0xDC00 ≤ m → m ≤ 0xDFFF →
      c.toNat = 0x10000 + (n - 0xD800) * 0x400 + (m - 0xDC00) → Body t s → Body ('\\' :: 'u' :: (h ++ '\\' :: 'u' :: (g ++ t))) (c :: s)

/-- C163, full statement: a string that is read from a text in UTF-8 is the characters it stands for, and what follows is UTF-8. -/
def C163_statement : Prop := ∀ (cs : List Char) (s r : Str), readStr .plain (encAll cs) = .ok s r →
  ∃ t ds es, encAll cs = t ++ '"' :: r ∧ Body t ds ∧ s = encAll ds ∧ r = encAll es

/-! ## The encoding -/

theorem byte_nat (n : Nat) (h : n < 256) : Char.ofNat (UInt8.ofNat n).toNat = Char.ofNat n := by
  have : (UInt8.ofNat n).toNat = n := by
    rw [UInt8.toNat_ofNat']; exact Nat.mod_eq_of_lt h
  rw [this]

theorem char_bound (c : Char) : c.toNat < 0xD800 ∨ (0xDFFF < c.toNat ∧ c.toNat < 0x110000) := c.valid

/-- The encoding of the code is that of the library. -/
theorem utf8_enc (c : Char) : utf8 c.toNat = enc c := by
  have hb := char_bound c
  have hv : c.val.toNat = c.toNat := rfl
  simp only [enc, String.utf8EncodeChar, utf8, hv]
  split
  · next h => simp only [List.map_cons, List.map_nil, byte_nat _ (show c.toNat < 256 by omega)]
  · split
    · next h1 h =>
      simp only [List.map_cons, List.map_nil]
      rw [byte_nat _ (by omega), byte_nat _ (by omega), show 0xC0 + c.toNat / 64 = c.toNat / 64 % 32 + 192 by omega, Nat.add_comm 0x80]
    · split
      · next h2 h1 h =>
        simp only [List.map_cons, List.map_nil]
        rw [byte_nat _ (by omega), byte_nat _ (by omega), byte_nat _ (by omega), show 0xE0 + c.toNat / 4096 = c.toNat / 4096 % 16 + 224 by omega,
          Nat.add_comm 0x80, Nat.add_comm 0x80]
      · next h3 h2 h1 =>
        simp only [List.map_cons, List.map_nil]
        rw [byte_nat _ (by omega), byte_nat _ (by omega), byte_nat _ (by omega), byte_nat _ (by omega),
          show 0xF0 + c.toNat / 262144 = c.toNat / 262144 % 8 + 240 by omega, Nat.add_comm 0x80, Nat.add_comm 0x80, Nat.add_comm 0x80]

theorem ofNat_toNat (n : Nat) (h : n < 0xD800) : (Char.ofNat n).toNat = n := by
  have hv : n.isValidChar := Or.inl h
  simp only [Char.ofNat, hv, dite_true]
  rfl

theorem enc_ascii (c : Char) (h : c.toNat < 128) : enc c = [c] := by
  rw [← utf8_enc, utf8, if_pos (by omega), Char.ofNat_toNat]

/-- All bytes of another character are above 127. -/
theorem enc_high (c : Char) (h : ¬ c.toNat < 128) : enc c ≠ [] ∧ ∀ b, b ∈ enc c → 128 ≤ b.toNat := by
  have hb := char_bound c
  rw [← utf8_enc, utf8, if_neg (by omega)]
  split
  · refine ⟨by simp, fun b hm => ?_⟩
    simp only [List.mem_cons, List.not_mem_nil, or_false] at hm
    rcases hm with rfl | rfl <;> rw [ofNat_toNat _ (by omega)] <;> omega
  · split
    · refine ⟨by simp, fun b hm => ?_⟩
      simp only [List.mem_cons, List.not_mem_nil, or_false] at hm
      rcases hm with rfl | rfl | rfl <;> rw [ofNat_toNat _ (by omega)] <;> omega
    · refine ⟨by simp, fun b hm => ?_⟩
      simp only [List.mem_cons, List.not_mem_nil, or_false] at hm
      rcases hm with rfl | rfl | rfl | rfl <;> rw [ofNat_toNat _ (by omega)] <;> omega

/-! ## What is written is read -/

theorem chars_high (l : Str) (h : ∀ b, b ∈ l → 128 ≤ b.toNat) (t s : Str) (hc : Chars t s) : Chars (l ++ t) (l ++ s) := by
  induction l with
  | nil => exact hc
  | cons b l ih =>
    have hb := h b List.mem_cons_self
    exact Chars.plain b _ _ (by omega) (fun e => (by subst e; revert hb; decide)) (fun e => (by subst e; revert hb; decide))
      (ih fun x hx => h x (List.mem_cons_of_mem _ hx))

theorem escapes_ascii : ∀ p, p ∈ escapes → p.2.toNat < 128 := by decide

theorem body_chars (t : Str) (cs : List Char) (h : Body t cs) : Chars t (encAll cs) := by
  induction h with
  | nil => exact Chars.nil
  | plain c t s h1 h2 h3 _ ih =>
    show Chars _ (enc c ++ encAll s)
    by_cases ha : c.toNat < 128
    · rw [enc_ascii c ha]; exact Chars.plain c t _ h1 h2 h3 ih
    · exact chars_high (enc c) (enc_high c ha).2 t _ ih
  | esc c e t s h1 _ ih =>
    show Chars _ (enc e ++ encAll s)
    rw [enc_ascii e (escapes_ascii _ h1)]
    exact Chars.esc c e t _ h1 ih
  | uni h c t s h1 _ ih =>
    show Chars _ (enc c ++ encAll s)
    rw [← utf8_enc]
    exact Chars.uni h c.toNat t _ h1 (by have := char_bound c; omega) ih
  | pair h g n m c t s h1 h2 h3 h4 h5 h6 h7 _ ih =>
    show Chars _ (enc c ++ encAll s)
    rw [← utf8_enc, show c.toNat = surrogates n m by rw [h7, surrogates]; omega]
    exact Chars.pair h g n m t _ h1 h2 h3 h4 h5 h6 ih

/-- C163, the first half: whatever way the characters of a string are written, they are what is read, in UTF-8. -/
theorem C163_read (t : Str) (cs : List Char) (r : Str) (h : Body t cs) : readStr .plain (t ++ '"' :: r) = .ok (encAll cs) r :=
  readStr_complete t _ (body_chars t cs h) r

/-! ## What is read was written -/

theorem enc_ne (c : Char) : enc c ≠ [] := by
  by_cases h : c.toNat < 128
  · rw [enc_ascii c h]; simp
  · exact (enc_high c h).1

/-- A text in UTF-8 that begins with a byte below 128. -/
theorem peel (cs : List Char) (c : Char) (rest : Str) (hc : c.toNat < 128) (h : encAll cs = c :: rest) : ∃ cs', cs = c :: cs' ∧ rest = encAll cs' := by
  cases cs with
  | nil => cases h
  | cons d cs' =>
    have h' : enc d ++ encAll cs' = c :: rest := h
    by_cases hd : d.toNat < 128
    · rw [enc_ascii d hd] at h'
      simp only [List.cons_append, List.nil_append, List.cons.injEq] at h'
      exact ⟨cs', by rw [h'.1], h'.2.symm⟩
    · obtain ⟨h1, h2⟩ := enc_high d hd
      cases he : enc d with
      | nil => exact absurd he h1
      | cons b l =>
        rw [he] at h' h2
        simp only [List.cons_append, List.cons.injEq] at h'
        have := h2 b List.mem_cons_self
        rw [h'.1] at this
        omega

theorem hex_ascii (c : Char) (v : Nat) (h : Hex c v) : c.toNat < 128 := by
  have k1 : ∀ p, p ∈ ("0123456789abcdef".toList.zip (List.range 16)) → p.1.toNat < 128 := by decide +kernel
  have k2 : ∀ p, p ∈ ("ABCDEF".toList.zip [10, 11, 12, 13, 14, 15]) → p.1.toNat < 128 := by decide +kernel
  rcases h with h | h
  · exact k1 _ h
  · exact k2 _ h

theorem peel4 (cs : List Char) (h : Str) (n : Nat) (rest : Str) (hh : Hex4 h n) (he : encAll cs = h ++ rest) :
    ∃ cs', rest = encAll cs' ∧ cs'.length < cs.length := by
  obtain ⟨a, b, c, d, x, y, z, w, rfl, h1, h2, h3, h4, _⟩ := hh
  obtain ⟨c1, rfl, e1⟩ := peel cs a _ (hex_ascii a x h1) he
  obtain ⟨c2, rfl, e2⟩ := peel c1 b _ (hex_ascii b y h2) e1.symm
  obtain ⟨c3, rfl, e3⟩ := peel c2 c _ (hex_ascii c z h3) e2.symm
  obtain ⟨c4, rfl, e4⟩ := peel c3 d _ (hex_ascii d w h4) e3.symm
  exact ⟨c4, e4, by simp only [List.length_cons]; omega⟩

theorem chars_high_inv (l : Str) (h : ∀ b, b ∈ l → 128 ≤ b.toNat) : ∀ (t s : Str), Chars (l ++ t) s → ∃ s', s = l ++ s' ∧ Chars t s' := by
  induction l with
  | nil => intro t s hc; exact ⟨s, rfl, hc⟩
  | cons b l ih =>
    intro t s hc
    have hb := h b List.mem_cons_self
    have hn : b ≠ '\\' := fun e => (by subst e; revert hb; decide)
    have hc : Chars (b :: (l ++ t)) s := hc
    generalize hl : l ++ t = lt at hc
    cases hc with
    | plain _ _ s2 _ _ _ h2 =>
      rw [← hl] at h2
      obtain ⟨s', e, h3⟩ := ih (fun x hx => h x (List.mem_cons_of_mem _ hx)) t s2 h2
      exact ⟨s', by rw [e]; rfl, h3⟩
    | esc => exact absurd rfl hn
    | uni => exact absurd rfl hn
    | pair => exact absurd rfl hn

theorem hex4_bound (h : Str) (n : Nat) (hh : Hex4 h n) : n ≤ 0xFFFF := by
  have hv : ∀ c v, Hex c v → v < 16 := by
    intro c v hc
    have k1 : ∀ p, p ∈ ("0123456789abcdef".toList.zip (List.range 16)) → p.2 < 16 := by decide +kernel
    have k2 : ∀ p, p ∈ ("ABCDEF".toList.zip [10, 11, 12, 13, 14, 15]) → p.2 < 16 := by decide +kernel
    rcases hc with hc | hc
    · exact k1 _ hc
    · exact k2 _ hc
  obtain ⟨a, b, c, d, x, y, z, w, rfl, h1, h2, h3, h4, rfl⟩ := hh
  have := hv _ _ h1; have := hv _ _ h2; have := hv _ _ h3; have := hv _ _ h4
  omega

theorem char_of (n : Nat) (h : n < 0xD800 ∨ (0xDFFF < n ∧ n < 0x110000)) : ∃ c : Char, c.toNat = n := by
  have hv : n.isValidChar := h
  refine ⟨Char.ofNat n, ?_⟩
  simp only [Char.ofNat, hv, dite_true]
  rfl

/-- What went right. -/
def Good (t s r : Str) : Prop := ∃ ds es, Body t ds ∧ s = encAll ds ∧ r = encAll es

/-- After a part of the string that is right comes an escape for the second half of a surrogate pair, without the first half. -/
def LoneLow (t : Str) : Prop := ∃ t1 h n t2 ds, t = t1 ++ '\\' :: 'u' :: (h ++ t2) ∧ Body t1 ds ∧ Hex4 h n ∧ 0xDC00 ≤ n ∧ n ≤ 0xDFFF

/-- Putting a piece in front. -/
theorem good_cons (p t s r : Str) (c : Char) (hp : ∀ t ds, Body t ds → Body (p ++ t) (c :: ds)) (h : Good t s r ∨ LoneLow t) :
    Good (p ++ t) (enc c ++ s) r ∨ LoneLow (p ++ t) := by
  rcases h with ⟨ds, es, h1, h2, h3⟩ | ⟨t1, h, n, t2, ds, h1, h2, h3⟩
  · exact Or.inl ⟨c :: ds, es, hp t ds h1, by rw [h2]; rfl, h3⟩
  · exact Or.inr ⟨p ++ t1, h, n, t2, c :: ds, by rw [h1, List.append_assoc], hp t1 ds h2, h3⟩

theorem chars_good (k : Nat) : ∀ (cs : List Char) (t s r : Str), cs.length ≤ k → Chars t s → encAll cs = t ++ '"' :: r → Good t s r ∨ LoneLow t := by
  induction k with
  | zero =>
    intro cs t s r hk _ he
    have : cs = [] := List.length_eq_zero_iff.mp (by omega)
    subst this
    cases t <;> cases he
  | succ k ih =>
    intro cs t s r hk hc he
    cases hc with
    | nil =>
      obtain ⟨cs', rfl, e⟩ := peel cs '"' r (by decide) he
      exact Or.inl ⟨[], cs', Body.nil, rfl, e⟩
    | plain c t s h1 h2 h3 h4 =>
      by_cases ha : c.toNat < 128
      · obtain ⟨cs', rfl, e⟩ := peel cs c _ ha he
        have := ih cs' t s r (by simp only [List.length_cons] at hk; omega) h4 e.symm
        have g := good_cons [c] t s r c (fun t ds hb => by
          have := Body.plain c t ds h1 h2 h3 hb
          rwa [enc_ascii c ha] at this) this
        rwa [enc_ascii c ha] at g
      · cases cs with
        | nil => cases he
        | cons d cs' =>
          have he' : enc d ++ encAll cs' = c :: (t ++ '"' :: r) := he
          have hd : ¬ d.toNat < 128 := by
            intro hd
            rw [enc_ascii d hd] at he'
            simp only [List.cons_append, List.nil_append, List.cons.injEq] at he'
            rw [he'.1] at hd
            exact ha hd
          obtain ⟨g1, g2⟩ := enc_high d hd
          have hs : ∃ t', c :: t = enc d ++ t' ∧ encAll cs' = t' ++ '"' :: r := by
            have he2 : enc d ++ encAll cs' = (c :: t) ++ '"' :: r := he'
            rcases List.append_eq_append_iff.mp he2 with ⟨x, e1, e2⟩ | ⟨x, e1, e2⟩
            · exact ⟨x, e1, e2⟩
            · cases x with
              | nil => exact ⟨[], by simpa using e1.symm, by simpa using e2.symm⟩
              | cons b x =>
                simp only [List.cons_append, List.cons.injEq] at e2
                have := g2 b (by rw [e1]; simp)
                rw [← e2.1] at this
                exact absurd this (by decide)
          obtain ⟨t', e1, e2⟩ := hs
          have hch : Chars (c :: t) (c :: s) := Chars.plain c t s h1 h2 h3 h4
          rw [e1] at hch ⊢
          obtain ⟨s', e3, h5⟩ := chars_high_inv (enc d) g2 t' _ hch
          rw [e3]
          exact good_cons (enc d) t' s' r d (fun t ds hb => Body.plain d t ds (by omega)
            (fun e => (by subst e; revert hd; decide)) (fun e => (by subst e; revert hd; decide)) hb)
            (ih cs' t' s' r (by simp only [List.length_cons] at hk; omega) h5 e2)
    | esc c e t s h1 h4 =>
      obtain ⟨cs1, rfl, e1⟩ := peel cs '\\' _ (by decide) he
      have hca : c.toNat < 128 := by
        have : ∀ p, p ∈ escapes → p.1.toNat < 128 := by decide
        exact this _ h1
      obtain ⟨cs2, rfl, e2⟩ := peel cs1 c _ hca e1.symm
      have g := good_cons ['\\', c] t s r e (fun t ds hb => Body.esc c e t ds h1 hb)
        (ih cs2 t s r (by simp only [List.length_cons] at hk; omega) h4 e2.symm)
      rwa [enc_ascii e (escapes_ascii _ h1)] at g
    | uni h n t s h1 h2 h4 =>
      obtain ⟨cs1, rfl, e1⟩ := peel cs '\\' _ (by decide) he
      obtain ⟨cs2, rfl, e2⟩ := peel cs1 'u' _ (by decide) e1.symm
      by_cases hl : 0xDC00 ≤ n ∧ n ≤ 0xDFFF
      · exact Or.inr ⟨[], h, n, t, [], rfl, Body.nil, h1, hl.1, hl.2⟩
      · have hb := hex4_bound h n h1
        obtain ⟨c, hcn⟩ := char_of n (by omega)
        have e2 : (h ++ t) ++ '"' :: r = encAll cs2 := e2
        rw [List.append_assoc] at e2
        obtain ⟨cs3, e3, hlen⟩ := peel4 cs2 h n _ h1 e2.symm
        have g := good_cons ('\\' :: 'u' :: h) t s r c (fun t ds hb => Body.uni h c t ds (by rw [hcn]; exact h1) hb)
          (ih cs3 t s r (by simp only [List.length_cons] at hk; omega) h4 e3.symm)
        rw [← utf8_enc, hcn] at g
        exact g
    | pair h g n m t s h1 h2 h3 h5 h6 h7 h4 =>
      obtain ⟨cs1, rfl, e1⟩ := peel cs '\\' _ (by decide) he
      obtain ⟨cs2, rfl, e2⟩ := peel cs1 'u' _ (by decide) e1.symm
      have e2 : (h ++ '\\' :: 'u' :: (g ++ t)) ++ '"' :: r = encAll cs2 := e2
      rw [List.append_assoc] at e2
      obtain ⟨cs3, e3, l3⟩ := peel4 cs2 h n _ h1 e2.symm
      obtain ⟨cs4, rfl, e4⟩ := peel cs3 '\\' _ (by decide) e3.symm
      obtain ⟨cs5, rfl, e5⟩ := peel cs4 'u' _ (by decide) e4.symm
      have e5 : (g ++ t) ++ '"' :: r = encAll cs5 := e5
      rw [List.append_assoc] at e5
      obtain ⟨cs6, e6, l6⟩ := peel4 cs5 g m _ h5 e5.symm
      obtain ⟨c, hcn⟩ := char_of (0x10000 + (n - 0xD800) * 0x400 + (m - 0xDC00)) (by omega)
      have gg := good_cons ('\\' :: 'u' :: (h ++ '\\' :: 'u' :: g)) t s r c
        (fun t ds hb => by
          have := Body.pair h g n m c t ds h1 h2 h3 h5 h6 h7 hcn hb
          simpa only [List.cons_append, List.append_assoc] using this)
        (ih cs6 t s r (by simp only [List.length_cons] at hk l3; omega) h4 e6.symm)
      rw [← utf8_enc, show c.toNat = surrogates n m by rw [hcn, surrogates]; omega] at gg
      simpa only [List.cons_append, List.append_assoc] using gg

/-- C163, what holds: the string is the characters it stands for, unless there is a second half of a surrogate pair without the first one. -/
theorem C163_partial (cs : List Char) (s r : Str) (h : readStr .plain (encAll cs) = .ok s r) :
    ∃ t, encAll cs = t ++ '"' :: r ∧ ((∃ ds es, Body t ds ∧ s = encAll ds ∧ r = encAll es) ∨ LoneLow t) := by
  obtain ⟨t, e, hf⟩ := readStr_sound _ _ _ _ h
  exact ⟨t, e, chars_good cs.length cs t s r (Nat.le_refl _) hf e⟩

/-! ## What is written -/

theorem hexDigit_hex (n : Nat) (h : n < 16) : Hex (hexDigit n) n := by
  have k : ∀ n : Fin 16, (hexDigit n.val, n.val) ∈ ("0123456789abcdef".toList.zip (List.range 16)) ∨
      (hexDigit n.val, n.val) ∈ ("ABCDEF".toList.zip [10, 11, 12, 13, 14, 15]) := by decide +kernel
  exact k ⟨n, h⟩

theorem write_ascii (c : Char) (h : c.toNat < 128) (t : Str) (ds : List Char) (hb : Body t ds) : Body (escChar c ++ t) (c :: ds) := by
  unfold escChar
  split
  · exact Body.esc '"' '"' t ds (by decide) hb
  · exact Body.esc '\\' '\\' t ds (by decide) hb
  · exact Body.esc 'b' '\x08' t ds (by decide) hb
  · exact Body.esc 't' '\t' t ds (by decide) hb
  · exact Body.esc 'n' '\n' t ds (by decide) hb
  · exact Body.esc 'f' '\x0c' t ds (by decide) hb
  · exact Body.esc 'r' '\r' t ds (by decide) hb
  · next h1 h2 _ _ _ _ _ =>
    split
    · have hz : Hex '0' 0 := hexDigit_hex 0 (by decide)
      exact Body.uni ['0', '0', hexDigit (c.toNat / 16), hexDigit (c.toNat % 16)] c t ds
        ⟨_, _, _, _, 0, 0, c.toNat / 16, c.toNat % 16, rfl, hz, hz, hexDigit_hex _ (by omega), hexDigit_hex _ (by omega), by omega⟩ hb
    · have := Body.plain c t ds (by omega) h1 h2 hb
      rwa [enc_ascii c h] at this

theorem esc_high (c : Char) (h : 128 ≤ c.toNat) : escChar c = [c] := by
  unfold escChar
  split
  all_goals first | (exact absurd h (by decide)) | skip
  rw [if_neg (by omega)]

theorem flat_high (l : Str) (h : ∀ b, b ∈ l → 128 ≤ b.toNat) : l.flatMap escChar = l := by
  induction l with
  | nil => rfl
  | cons b l ih =>
    rw [List.flatMap_cons, esc_high b (h b List.mem_cons_self), ih fun x hx => h x (List.mem_cons_of_mem _ hx)]
    rfl

/-- C163, written: the text that is written for a string in UTF-8 stands for its characters. -/
theorem C163_write (cs : List Char) : ∃ t, quoted (encAll cs) = '"' :: t ++ ['"'] ∧ Body t cs := by
  refine ⟨_, rfl, ?_⟩
  induction cs with
  | nil => exact Body.nil
  | cons c cs ih =>
    show Body ((enc c ++ encAll cs).flatMap escChar) (c :: cs)
    rw [List.flatMap_append]
    by_cases h : c.toNat < 128
    · rw [enc_ascii c h]
      simp only [List.flatMap_cons, List.flatMap_nil, List.append_nil]
      exact write_ascii c h _ _ ih
    · rw [flat_high (enc c) (enc_high c h).2]
      exact Body.plain c _ _ (by omega) (fun e => (by subst e; exact absurd h (by decide))) (fun e => (by subst e; exact absurd h (by decide))) ih

/-- Non-vacuity: an accent, a quote and a control character. -/
example : quoted (encAll ['é', '"', '\x01']) = '"' :: (enc 'é' ++ "\\\"\\u0001".toList) ++ ['"'] := by decide +kernel

/-! ## The second half alone -/

/-- No character of Unicode has this encoding. -/
theorem low_not_utf8 (ds : List Char) : encAll ds ≠ utf8 0xDC00 := by
  intro h
  have hu : utf8 0xDC00 = [Char.ofNat 0xED, Char.ofNat 0xB0, Char.ofNat 0x80] := by decide
  rw [hu] at h
  cases ds with
  | nil => cases h
  | cons d ds =>
    have h' : enc d ++ encAll ds = [Char.ofNat 0xED, Char.ofNat 0xB0, Char.ofNat 0x80] := h
    have hb := char_bound d
    rw [← utf8_enc, utf8] at h'
    have inj : ∀ a b : Nat, a < 0xD800 → b < 0xD800 → Char.ofNat a = Char.ofNat b → a = b := by
      intro a b ha hb e
      have := congrArg Char.toNat e
      rwa [ofNat_toNat a ha, ofNat_toNat b hb] at this
    split at h'
    · next c1 =>
      simp only [List.cons_append, List.nil_append, List.cons.injEq] at h'
      have := inj _ _ (by omega) (by omega) h'.1
      omega
    · split at h'
      · next c1 c2 =>
        simp only [List.cons_append, List.nil_append, List.cons.injEq] at h'
        have := inj _ _ (by omega) (by omega) h'.1
        omega
      · split at h'
        · next c1 c2 c3 =>
          simp only [List.cons_append, List.nil_append, List.cons.injEq] at h'
          have g1 := inj _ _ (by omega) (by omega) h'.1
          have g2 := inj _ _ (by omega) (by omega) h'.2.1
          have g3 := inj _ _ (by omega) (by omega) h'.2.2.1
          omega
        · next c1 c2 c3 =>
          have := congrArg List.length h'
          simp at this

/-- Such an escape is accepted and becomes three bytes that are not UTF-8. -/
theorem C163_low : readStr .plain (encAll "\\uDC00\"".toList) = .ok (utf8 0xDC00) [] := by
  rw [show encAll "\\uDC00\"".toList = "\\uDC00\"".toList by decide +kernel]
  rfl

theorem C163_violated : ¬ C163_statement := by
  intro h
  obtain ⟨t, ds, es, _, _, e, _⟩ := h _ _ _ C163_low
  exact low_not_utf8 ds e.symm

/-- Non-vacuity: the same character written in three ways, and a pair. -/
example : Body "\\u00e9\\u00E9".toList ['é', 'é'] ∧ Body (enc 'é' ++ "\\n".toList) ['é', '\n'] ∧ Body "\\uD83D\\uDE00".toList ['😀'] ∧
    readStr .plain ("\\uD83D\\uDE00\\u00e9\" rest".toList) = .ok (encAll ['😀', 'é']) " rest".toList := by
  have hx : ∀ {c : Char} {v : Nat}, ((c, v) ∈ ("0123456789abcdef".toList.zip (List.range 16)) ∨ (c, v) ∈ ("ABCDEF".toList.zip [10, 11, 12, 13, 14, 15])) → Hex c v := fun h => h
  have e1 : Hex4 "00e9".toList 'é'.toNat := ⟨'0', '0', 'e', '9', 0, 0, 14, 9, rfl, hx (by decide +kernel), hx (by decide +kernel), hx (by decide +kernel), hx (by decide +kernel), rfl⟩
  have e2 : Hex4 "00E9".toList 'é'.toNat := ⟨'0', '0', 'E', '9', 0, 0, 14, 9, rfl, hx (by decide +kernel), hx (by decide +kernel), hx (by decide +kernel), hx (by decide +kernel), rfl⟩
  have e3 : Hex4 "D83D".toList 0xD83D := ⟨'D', '8', '3', 'D', 13, 8, 3, 13, rfl, hx (by decide +kernel), hx (by decide +kernel), hx (by decide +kernel), hx (by decide +kernel), rfl⟩
  have e4 : Hex4 "DE00".toList 0xDE00 := ⟨'D', 'E', '0', '0', 13, 14, 0, 0, rfl, hx (by decide +kernel), hx (by decide +kernel), hx (by decide +kernel), hx (by decide +kernel), rfl⟩
  refine ⟨Body.uni _ 'é' _ _ e1 (Body.uni _ 'é' [] [] e2 Body.nil), Body.plain 'é' _ _ (by decide) (by decide) (by decide) (Body.esc 'n' '\n' [] [] (by decide) Body.nil),
    Body.pair _ _ _ _ '😀' [] [] e3 (by decide) (by decide) e4 (by decide) (by decide) (by decide) Body.nil, ?_⟩
  exact C163_read "\\uD83D\\uDE00\\u00e9".toList ['😀', 'é'] " rest".toList
    (Body.pair _ _ _ _ '😀' _ _ e3 (by decide) (by decide) e4 (by decide) (by decide) (by decide) (Body.uni _ 'é' [] [] e1 Body.nil))

end Verif.JsonText
