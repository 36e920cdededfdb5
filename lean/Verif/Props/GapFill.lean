import Verif.Model.GapFill
/-! Property C20: gap filling is pixel exact. -/
namespace Verif.GapFill

/-! ## Specification -/

/-- A layout: a grid of `gy × gx` chips of `cy × cx` pixels of `sz` bytes, and the gaps: one before every
chip and one after the last, in each direction. -/
structure Spec.Layout where
  gy : Nat
  gx : Nat
  cy : Nat
  cx : Nat
  gapsY : List Nat
  gapsX : List Nat
  sz : Nat

namespace Spec

/-- The first `n` gaps together. -/
def gapsBefore (gaps : List Nat) (n : Nat) : Nat := (gaps.take n).sum

variable (l : Spec.Layout)

/-- Size of the images. -/
def srcHeight : Nat := l.gy * l.cy
def srcWidth : Nat := l.gx * l.cx
def height : Nat := srcHeight l + l.gapsY.sum
def width : Nat := srcWidth l + l.gapsX.sum

/-- Where a source row and column go: shifted by all gaps up to and including the one before its chip. -/
def destY (y : Nat) : Nat := y + gapsBefore l.gapsY (y / l.cy + 1)
def destX (x : Nat) : Nat := x + gapsBefore l.gapsX (x / l.cx + 1)

/-- Position of byte `k` of a pixel in a row-major image. -/
def byteAt (w sz y x k : Nat) : Nat := (y * w + x) * sz + k

/-- The plugin configuration that describes the layout. -/
def cfg : Cfg :=
  { grid := [(l.gy : Int), (l.gx : Int)], chip := [(l.cy : Int), (l.cx : Int)],
    gapsX := l.gapsX.map (fun (n : Nat) => (n : Int)), gapsY := l.gapsY.map (fun (n : Nat) => (n : Int)) }

/-- One gap more than chips in each direction. -/
def Complete : Prop := l.gapsX.length = l.gx + 1 ∧ l.gapsY.length = l.gy + 1

end Spec
open Spec

/-! ## Arithmetic -/

theorem gapsBefore_succ (g : List Nat) (n : Nat) (h : n < g.length) :
    gapsBefore g (n + 1) = gapsBefore g n + g[n] := by
  unfold gapsBefore
  rw [List.take_succ_eq_append_getElem h, List.sum_append]
  simp only [List.sum_cons, List.sum_nil, Nat.add_zero]

theorem gapsBefore_mono (g : List Nat) (m n : Nat) (h : m ≤ n) : gapsBefore g m ≤ gapsBefore g n := by
  unfold gapsBefore
  obtain ⟨k, rfl⟩ := Nat.le.dest h
  rw [List.take_add]
  simp

theorem gapsBefore_le (g : List Nat) (n : Nat) : gapsBefore g n ≤ g.sum := by
  unfold gapsBefore
  have := List.take_append_drop n g
  calc (g.take n).sum ≤ (g.take n).sum + (g.drop n).sum := Nat.le_add_right _ _
    _ = g.sum := by rw [← List.sum_append, this]

theorem destX_lt (l : Layout) (x : Nat) (h : x < srcWidth l) : destX l x < width l := by
  have := gapsBefore_le l.gapsX (x / l.cx + 1)
  unfold destX width; omega

theorem destY_lt (l : Layout) (y : Nat) (h : y < srcHeight l) : destY l y < height l := by
  have := gapsBefore_le l.gapsY (y / l.cy + 1)
  unfold destY height; omega

theorem destX_strict (l : Layout) (x x' : Nat) (h : x < x') : destX l x < destX l x' := by
  have : x / l.cx ≤ x' / l.cx := Nat.div_le_div_right (by omega)
  have := gapsBefore_mono l.gapsX (x / l.cx + 1) (x' / l.cx + 1) (by omega)
  unfold destX; omega

theorem destY_strict (l : Layout) (y y' : Nat) (h : y < y') : destY l y < destY l y' := by
  have : y / l.cy ≤ y' / l.cy := Nat.div_le_div_right (by omega)
  have := gapsBefore_mono l.gapsY (y / l.cy + 1) (y' / l.cy + 1) (by omega)
  unfold destY; omega

theorem destX_inj (l : Layout) (x x' : Nat) (h : destX l x = destX l x') : x = x' := by
  rcases Nat.lt_trichotomy x x' with h1 | h1 | h1
  · have := destX_strict l x x' h1; omega
  · exact h1
  · have := destX_strict l x' x h1; omega

theorem destY_inj (l : Layout) (x x' : Nat) (h : destY l x = destY l x') : x = x' := by
  rcases Nat.lt_trichotomy x x' with h1 | h1 | h1
  · have := destY_strict l x x' h1; omega
  · exact h1
  · have := destY_strict l x' x h1; omega

/-- Two-digit numbers are determined by their digits. -/
theorem digits_inj (w a b a' b' : Nat) (hb : b < w) (hb' : b' < w) (h : a * w + b = a' * w + b') :
    a = a' ∧ b = b' := by
  have h1 : (a * w + b) / w = a := by
    rw [Nat.add_comm, Nat.add_mul_div_right _ _ (by omega), Nat.div_eq_of_lt hb]; omega
  have h2 : (a' * w + b') / w = a' := by
    rw [Nat.add_comm, Nat.add_mul_div_right _ _ (by omega), Nat.div_eq_of_lt hb']; omega
  have : a = a' := by rw [← h1, ← h2, h]
  subst this
  exact ⟨rfl, by omega⟩

theorem digits_lt (w H a b : Nat) (ha : a < H) (hb : b < w) : a * w + b < H * w := by
  have : (a + 1) * w ≤ H * w := Nat.mul_le_mul_right _ ha
  rw [Nat.add_mul] at this; omega

theorem byteAt_inj (w sz y x k y' x' k' : Nat) (hx : x < w) (hx' : x' < w) (hk : k < sz) (hk' : k' < sz)
    (h : byteAt w sz y x k = byteAt w sz y' x' k') : y = y' ∧ x = x' ∧ k = k' := by
  obtain ⟨h1, h2⟩ := digits_inj sz _ _ _ _ hk hk' h
  obtain ⟨h3, h4⟩ := digits_inj w _ _ _ _ hx hx' h1
  exact ⟨h3, h4, h2⟩

theorem byteAt_lt (w h sz y x k : Nat) (hy : y < h) (hx : x < w) (hk : k < sz) :
    byteAt w sz y x k < h * w * sz :=
  digits_lt sz (h * w) _ _ (digits_lt w h y x hy hx) hk

/-! ## The loops -/

section Loops
variable (l : Spec.Layout) (src : Buf)

/-- The position a source byte goes to. -/
def dest (y x k : Nat) : Nat := byteAt (width l) l.sz (destY l y) (destX l x) k
/-- The position it comes from. -/
def from_ (y x k : Nat) : Nat := byteAt (srcWidth l) l.sz y x k

/-- Pixel coordinates within the source. -/
def In (y x k : Nat) : Prop := y < srcHeight l ∧ x < srcWidth l ∧ k < l.sz

theorem dest_inj (y x k y' x' k' : Nat) (h : In l y x k) (h' : In l y' x' k')
    (he : dest l y x k = dest l y' x' k') : y = y' ∧ x = x' ∧ k = k' := by
  obtain ⟨h1, h2, h3⟩ := byteAt_inj _ _ _ _ _ _ _ _ (destX_lt l x h.2.1) (destX_lt l x' h'.2.1) h.2.2 h'.2.2 he
  exact ⟨destY_inj l _ _ h1, destX_inj l _ _ h2, h3⟩

/-- The image while the source pixels in `Done` have been copied. -/
structure Copied (Done : Nat → Nat → Prop) (m : Buf) : Prop where
  size : m.size = height l * width l * l.sz
  copied : ∀ y x k, In l y x k → Done y x → m.data (dest l y x k) = src.data (from_ l y x k)
  rest : ∀ b, (∀ y x k, In l y x k → Done y x → b ≠ dest l y x k) → m.data b = 0

theorem Copied.congr {D E : Nat → Nat → Prop} {m : Buf} (h : Copied l src D m)
    (hde : ∀ y x k, In l y x k → (D y x ↔ E y x)) : Copied l src E m where
  size := h.size
  copied := fun y x k hi he => h.copied y x k hi ((hde y x k hi).2 he)
  rest := fun b hb => h.rest b (fun y x k hi hd => hb y x k hi ((hde y x k hi).1 hd))

/-- The loop constants for this layout. -/
def consts : Loop :=
  { src := src, width := (srcWidth l : Int), imgX := (width l : Int), chipX := (l.cx : Int),
    size := (l.sz : Int) }

/-- One `memcpy`: row `y` of chip column `j`. -/
theorem copy_row (hsrc : srcHeight l * srcWidth l * l.sz ≤ src.size) (D : Nat → Nat → Prop) (m : Buf)
    (h : Copied l src D m) (y j : Nat) (hy : y < srcHeight l) (hj : j < l.gx) :
    ∃ m', copy m (((destY l y : Int) * (width l : Int) + (gapsBefore l.gapsX (j + 1) : Int) + (j : Int) * (l.cx : Int)) * (l.sz : Int))
        src (((y : Int) * (srcWidth l : Int) + (j : Int) * (l.cx : Int)) * (l.sz : Int)) ((l.cx : Int) * (l.sz : Int)) = some m' ∧
      Copied l src (fun y' x' => D y' x' ∨ (y' = y ∧ x' / l.cx = j)) m' := by
  have hjw : (j + 1) * l.cx ≤ srcWidth l := Nat.mul_le_mul_right _ hj
  rw [Nat.add_mul] at hjw
  -- natural number form of the arguments
  have hd : ((destY l y : Int) * (width l : Int) + (gapsBefore l.gapsX (j + 1) : Int) + (j : Int) * (l.cx : Int)) * (l.sz : Int)
      = (((destY l y * width l + gapsBefore l.gapsX (j + 1) + j * l.cx) * l.sz : Nat) : Int) := by
    push_cast; rfl
  have hs : ((y : Int) * (srcWidth l : Int) + (j : Int) * (l.cx : Int)) * (l.sz : Int)
      = (((y * srcWidth l + j * l.cx) * l.sz : Nat) : Int) := by push_cast; rfl
  have hn : (l.cx : Int) * (l.sz : Int) = ((l.cx * l.sz : Nat) : Int) := by push_cast; rfl
  rw [hd, hs, hn]
  generalize hdn : (destY l y * width l + gapsBefore l.gapsX (j + 1) + j * l.cx) * l.sz = d
  generalize hsn : (y * srcWidth l + j * l.cx) * l.sz = s
  generalize hnn : l.cx * l.sz = n
  -- bounds
  have hjg := gapsBefore_le l.gapsX (j + 1)
  have hdb : d + n ≤ m.size := by
    rw [h.size, ← hdn, ← hnn, ← Nat.add_mul]
    apply Nat.mul_le_mul_right
    have : (destY l y + 1) * width l ≤ height l * width l := Nat.mul_le_mul_right _ (destY_lt l y hy)
    rw [Nat.add_mul] at this
    unfold width at this ⊢
    omega
  have hsb : s + n ≤ src.size := by
    refine Nat.le_trans ?_ hsrc
    rw [← hsn, ← hnn, ← Nat.add_mul]
    apply Nat.mul_le_mul_right
    have : (y + 1) * srcWidth l ≤ srcHeight l * srcWidth l := Nat.mul_le_mul_right _ hy
    rw [Nat.add_mul] at this
    omega
  have hcond : (0 : Int) ≤ (n : Int) ∧ (0 : Int) ≤ (d : Int) ∧ (d : Int) + (n : Int) ≤ (m.size : Int) ∧
      (0 : Int) ≤ (s : Int) ∧ (s : Int) + (n : Int) ≤ (src.size : Int) := by omega
  refine ⟨_, by unfold copy; rw [if_pos hcond], ?_⟩
  -- the copied bytes are those of row y in chip column j
  have hseg : ∀ x k, x < srcWidth l → k < l.sz → x / l.cx = j →
      d ≤ dest l y x k ∧ dest l y x k < d + n ∧ dest l y x k - d + s = from_ l y x k := by
    intro x k hx hk hxj
    have hcx : 0 < l.cx := by
      rcases Nat.eq_zero_or_pos l.cx with h0 | h0
      · unfold srcWidth at hx; rw [h0] at hx; simp at hx
      · exact h0
    have hx2 := Nat.div_add_mod x l.cx
    have hx3 := Nat.mod_lt x hcx
    rw [hxj, Nat.mul_comm] at hx2
    have e1 : dest l y x k = d + (x % l.cx) * l.sz + k := by
      unfold dest byteAt destX
      rw [hxj, ← hdn, ← Nat.add_mul]
      congr 2; omega
    have e2 : from_ l y x k = s + (x % l.cx) * l.sz + k := by
      unfold from_ byteAt
      rw [← hsn, ← Nat.add_mul]
      congr 2; omega
    have e3 : (x % l.cx) * l.sz + k < n := by
      rw [← hnn]; exact digits_lt _ _ _ _ hx3 hk
    omega
  have hinv : ∀ b, d ≤ b → b < d + n → ∃ x k, x < srcWidth l ∧ k < l.sz ∧ x / l.cx = j ∧ b = dest l y x k := by
    intro b h1 h2
    have hsz : 0 < l.sz := by
      rcases Nat.eq_zero_or_pos l.sz with h0 | h0
      · rw [h0] at hnn; omega
      · exact h0
    have hq : (b - d) / l.sz < l.cx := by
      rw [Nat.div_lt_iff_lt_mul hsz, hnn]; omega
    have hcx : 0 < l.cx := Nat.lt_of_le_of_lt (Nat.zero_le _) hq
    have hxj : (j * l.cx + (b - d) / l.sz) / l.cx = j := by
      rw [Nat.add_comm, Nat.add_mul_div_right _ _ hcx, Nat.div_eq_of_lt hq]; omega
    refine ⟨j * l.cx + (b - d) / l.sz, (b - d) % l.sz, by omega, Nat.mod_lt _ hsz, hxj, ?_⟩
    have := Nat.div_add_mod (b - d) l.sz
    have e1 : dest l y (j * l.cx + (b - d) / l.sz) ((b - d) % l.sz) = d + ((b - d) / l.sz) * l.sz + (b - d) % l.sz := by
      unfold dest byteAt destX
      rw [hxj, ← hdn, ← Nat.add_mul]
      congr 2; omega
    rw [e1, Nat.mul_comm]; omega
  constructor
  · exact h.size
  · intro y' x' k' hi hD
    show (if (d : Int) ≤ (dest l y' x' k' : Nat) ∧ ((dest l y' x' k' : Nat) : Int) < (d : Int) + (n : Int) then _ else _) = _
    by_cases hin : d ≤ dest l y' x' k' ∧ dest l y' x' k' < d + n
    · rw [if_pos (by omega)]
      obtain ⟨x, k, hx, hk, hxj, hb⟩ := hinv _ hin.1 hin.2
      obtain ⟨e1, e2, e3⟩ := dest_inj l y' x' k' y x k hi ⟨hy, hx, hk⟩ hb
      subst e1; subst e2; subst e3
      have := (hseg x' k' hx hk hxj).2.2
      congr 1
      omega
    · rw [if_neg (by omega)]
      rcases hD with hD | ⟨rfl, hxj⟩
      · exact h.copied y' x' k' hi hD
      · have := hseg x' k' hi.2.1 hi.2.2 hxj
        exact absurd ⟨this.1, this.2.1⟩ hin
  · intro b hb
    show (if (d : Int) ≤ (b : Int) ∧ (b : Int) < (d : Int) + (n : Int) then _ else _) = _
    by_cases hin : d ≤ b ∧ b < d + n
    · obtain ⟨x, k, hx, hk, hxj, he⟩ := hinv _ hin.1 hin.2
      exact absurd he (hb y x k ⟨hy, hx, hk⟩ (Or.inr ⟨rfl, hxj⟩))
    · rw [if_neg (by omega)]
      exact h.rest b (fun y' x' k' hi hd => hb y' x' k' hi (Or.inl hd))

theorem getElem_map (g : List Nat) (n : Nat) (h : n < g.length) :
    (g.map (fun (n : Nat) => (n : Int)))[n]? = some ((g[n] : Nat) : Int) := by
  simp [h]

theorem xLoop_copied (hc : Complete l) (hsrc : srcHeight l * srcWidth l * l.sz ≤ src.size)
    (D : Nat → Nat → Prop) (m : Buf) (h : Copied l src D m) (y : Nat) (hy : y < srcHeight l) :
    ∀ n, n ≤ l.gx → ∃ m', xLoop (consts l src) (l.gapsX.map (fun (n : Nat) => (n : Int))) (y : Int) (destY l y : Int) m n
        = some (m', (gapsBefore l.gapsX n : Int)) ∧
      Copied l src (fun y' x' => D y' x' ∨ (y' = y ∧ x' / l.cx < n)) m' := by
  intro n
  induction n with
  | zero =>
    intro _
    exact ⟨m, rfl, h.congr l src (by intro y x k _; simp)⟩
  | succ n ih =>
    intro hn
    obtain ⟨m1, e1, c1⟩ := ih (by omega)
    have hlen : n < l.gapsX.length := by have := hc.1; omega
    obtain ⟨m2, e2, c2⟩ := copy_row l src hsrc _ m1 c1 y n hy (by omega)
    refine ⟨m2, ?_, c2.congr l src ?_⟩
    · unfold xLoop
      rw [e1, getElem_map _ _ hlen]
      have hg : (gapsBefore l.gapsX n : Int) + ((l.gapsX[n] : Nat) : Int) = (gapsBefore l.gapsX (n + 1) : Int) := by
        rw [gapsBefore_succ _ _ hlen]; push_cast; rfl
      simp only [hg, consts]
      rw [e2]; rfl
    · intro y' x' k' _
      constructor
      · rintro ((h | ⟨h1, h2⟩) | ⟨h1, h2⟩)
        · exact Or.inl h
        · exact Or.inr ⟨h1, by omega⟩
        · exact Or.inr ⟨h1, by omega⟩
      · rintro (h | ⟨h1, h2⟩)
        · exact Or.inl (Or.inl h)
        · by_cases h3 : x' / l.cx = n
          · exact Or.inr ⟨h1, h3⟩
          · exact Or.inl (Or.inr ⟨h1, by omega⟩)

/-- All of a source row lies in some chip column. -/
theorem div_lt_gx (x : Nat) (h : x < srcWidth l) : x / l.cx < l.gx := by
  unfold srcWidth at h
  have : 0 < l.cx := by
    rcases Nat.eq_zero_or_pos l.cx with h0 | h0
    · rw [h0] at h; simp at h
    · exact h0
  rwa [Nat.div_lt_iff_lt_mul this]

theorem rowLoop_copied (hc : Complete l) (hsrc : srcHeight l * srcWidth l * l.sz ≤ src.size)
    (D : Nat → Nat → Prop) (m : Buf) (h : Copied l src D m) (i : Nat) (hi : i < l.gy) :
    ∀ n, n ≤ l.cy → ∃ m', rowLoop (consts l src) (l.gapsX.map (fun (n : Nat) => (n : Int))) l.gx (l.cy : Int) (i : Int)
        (gapsBefore l.gapsY (i + 1) : Int) m n = some m' ∧
      Copied l src (fun y' x' => D y' x' ∨ (y' / l.cy = i ∧ y' % l.cy < n)) m' := by
  intro n
  induction n with
  | zero =>
    intro _
    exact ⟨m, rfl, h.congr l src (by intro y x k _; simp)⟩
  | succ n ih =>
    intro hn
    obtain ⟨m1, e1, c1⟩ := ih (by omega)
    have hrow : i * l.cy + n < srcHeight l := digits_lt _ _ _ _ hi (by omega)
    have hdiv : (i * l.cy + n) / l.cy = i := by
      rw [Nat.add_comm, Nat.add_mul_div_right _ _ (by omega), Nat.div_eq_of_lt (by omega)]; omega
    have hmod : (i * l.cy + n) % l.cy = n := by
      rw [Nat.add_comm, Nat.add_mul_mod_self_right, Nat.mod_eq_of_lt (by omega)]
    obtain ⟨m2, e2, c2⟩ := xLoop_copied l src hc hsrc _ m1 c1 (i * l.cy + n) hrow l.gx (Nat.le_refl _)
    refine ⟨m2, ?_, c2.congr l src ?_⟩
    · unfold rowLoop
      rw [e1]
      have h1 : (i : Int) * (l.cy : Int) + (n : Int) = ((i * l.cy + n : Nat) : Int) := by push_cast; rfl
      have h2 : ((i * l.cy + n : Nat) : Int) + (gapsBefore l.gapsY (i + 1) : Int)
          = (destY l (i * l.cy + n) : Int) := by
        unfold destY; rw [hdiv]; push_cast; rfl
      simp only [h1, h2]
      rw [e2]; rfl
    · intro y' x' k' hin
      have hx := div_lt_gx l x' hin.2.1
      constructor
      · rintro ((h | ⟨h1, h2⟩) | ⟨rfl, h2⟩)
        · exact Or.inl h
        · exact Or.inr ⟨h1, by omega⟩
        · exact Or.inr ⟨hdiv, by omega⟩
      · rintro (h | ⟨h1, h2⟩)
        · exact Or.inl (Or.inl h)
        · by_cases h3 : y' % l.cy = n
          · refine Or.inr ⟨?_, hx⟩
            have := Nat.div_add_mod y' l.cy
            rw [h1, h3, Nat.mul_comm] at this
            exact this.symm
          · exact Or.inl (Or.inr ⟨h1, by omega⟩)

theorem yLoop_copied (hc : Complete l) (hsrc : srcHeight l * srcWidth l * l.sz ≤ src.size)
    (m : Buf) (h : Copied l src (fun _ _ => False) m) :
    ∀ n, n ≤ l.gy → ∃ m', yLoop (consts l src) (l.gapsX.map (fun (n : Nat) => (n : Int)))
        (l.gapsY.map (fun (n : Nat) => (n : Int))) l.gx (l.cy : Int) m n = some (m', (gapsBefore l.gapsY n : Int)) ∧
      Copied l src (fun y' _ => y' / l.cy < n) m' := by
  intro n
  induction n with
  | zero =>
    intro _
    exact ⟨m, rfl, h.congr l src (by intro y x k _; simp)⟩
  | succ n ih =>
    intro hn
    obtain ⟨m1, e1, c1⟩ := ih (by omega)
    have hlen : n < l.gapsY.length := by have := hc.2; omega
    obtain ⟨m2, e2, c2⟩ := rowLoop_copied l src hc hsrc _ m1 c1 n (by omega) l.cy (Nat.le_refl _)
    refine ⟨m2, ?_, c2.congr l src ?_⟩
    · unfold yLoop
      rw [e1, getElem_map _ _ hlen]
      have hg : (gapsBefore l.gapsY n : Int) + ((l.gapsY[n] : Nat) : Int) = (gapsBefore l.gapsY (n + 1) : Int) := by
        rw [gapsBefore_succ _ _ hlen]; push_cast; rfl
      simp only [hg, Int.toNat_natCast]
      rw [e2]; rfl
    · intro y' x' k' hin
      have hcy : 0 < l.cy := by
        have := hin.1
        rcases Nat.eq_zero_or_pos l.cy with h0 | h0
        · unfold srcHeight at this; rw [h0] at this; simp at this
        · exact h0
      have := Nat.mod_lt y' hcy
      constructor
      · rintro (h | ⟨h1, _⟩) <;> omega
      · intro h
        by_cases h3 : y' / l.cy = n
        · exact Or.inr ⟨h3, this⟩
        · exact Or.inl (by omega)

theorem gapSum_eq (g : List Nat) : ∀ n, n ≤ g.length →
    gapSum (g.map (fun (n : Nat) => (n : Int))) n = some (gapsBefore g n : Int) := by
  intro n
  induction n with
  | zero => intro _; rfl
  | succ n ih =>
    intro h
    unfold gapSum
    rw [ih (by omega), getElem_map _ _ (by omega), gapsBefore_succ _ _ (by omega)]
    simp

end Loops

/-! ## C20 -/

/-- C20: for a complete layout with non-negative gaps and an image of the size it says, `process_frame`
never leaves the buffers and pushes an image of the enlarged size in which every byte of every source
pixel is found at the shifted coordinates, and every pixel that is no shifted source pixel is zero. -/
theorem C20_exact (l : Spec.Layout) (src : Buf) (hc : Spec.Complete l)
    (hsrc : srcHeight l * srcWidth l * l.sz ≤ src.size) :
    ∃ out, processFrame (Spec.cfg l) [srcHeight l, srcWidth l] l.sz src
        = .pushed [(height l : Int), (width l : Int)] out ∧
      out.size = height l * width l * l.sz ∧
      (∀ y x k, y < srcHeight l → x < srcWidth l → k < l.sz →
        out.data (byteAt (width l) l.sz (destY l y) (destX l x) k)
          = src.data (byteAt (srcWidth l) l.sz y x k)) ∧
      (∀ Y X k, Y < height l → X < width l → k < l.sz →
        (¬ ∃ y x, y < srcHeight l ∧ x < srcWidth l ∧ Y = destY l y ∧ X = destX l x) →
        out.data (byteAt (width l) l.sz Y X k) = 0) := by
  obtain ⟨hx, hy⟩ := hc
  have hvalid : configurationValid (Spec.cfg l) [srcHeight l, srcWidth l] = some true := by
    simp [configurationValid, Spec.cfg, srcHeight, srcWidth, hx, hy]
  unfold processFrame
  rw [hvalid]
  dsimp only
  have htx : gapsBefore l.gapsX (l.gx + 1) = l.gapsX.sum := by
    unfold gapsBefore; rw [List.take_of_length_le (by omega)]
  have hty : gapsBefore l.gapsY (l.gy + 1) = l.gapsY.sum := by
    unfold gapsBefore; rw [List.take_of_length_le (by omega)]
  have hgx := gapSum_eq l.gapsX (l.gx + 1) (by omega)
  have hgy := gapSum_eq l.gapsY (l.gy + 1) (by omega)
  rw [htx] at hgx; rw [hty] at hgy
  have h1 : ((l.gx : Int) + 1).toNat = l.gx + 1 := by omega
  have h2 : ((l.gy : Int) + 1).toNat = l.gy + 1 := by omega
  have hX : (l.gx : Int) * (l.cx : Int) + ((l.gapsX.sum : Nat) : Int) = (width l : Int) := by
    unfold width srcWidth; push_cast; rfl
  have hY : (l.gy : Int) * (l.cy : Int) + ((l.gapsY.sum : Nat) : Int) = (height l : Int) := by
    unfold height srcHeight; push_cast; rfl
  have hprod : (width l : Int) * (height l : Int) = ((height l * width l : Nat) : Int) := by
    push_cast; rw [Int.mul_comm]
  obtain ⟨m, e, c⟩ := yLoop_copied l src ⟨hx, hy⟩ hsrc
    { size := height l * width l * l.sz, data := fun _ => 0 }
    ⟨rfl, fun _ _ _ _ h => h.elim, fun _ _ => rfl⟩ l.gy (Nat.le_refl _)
  refine ⟨m, ?_, c.size, ?_, ?_⟩
  · unfold insertGaps
    simp only [Spec.cfg, h1, h2, hgx, hgy, hX, hY, hprod]
    rw [if_neg (by omega)]
    simp only [Int.toNat_natCast]
    unfold consts at e
    rw [e]
  · intro y x k h1 h2 h3
    have hcy : 0 < l.cy := by
      rcases Nat.eq_zero_or_pos l.cy with h0 | h0
      · unfold srcHeight at h1; rw [h0] at h1; simp at h1
      · exact h0
    refine c.copied y x k ⟨h1, h2, h3⟩ ?_
    show y / l.cy < l.gy
    rw [Nat.div_lt_iff_lt_mul hcy]; exact h1
  · intro Y X k h1 h2 h3 hno
    apply c.rest
    intro y x k' hin _ he
    obtain ⟨e1, e2, _⟩ := byteAt_inj _ _ _ _ _ _ _ _ h2 (destX_lt l x hin.2.1) h3 hin.2.2 he
    exact hno ⟨y, x, hin.1, hin.2.1, e1, e2⟩

/-- C20: a configured plugin drops (with an error, without touching memory) every frame whose dimensions or
gap lists do not fit. -/
theorem C20_mismatch_dropped (g0 g1 c0 c1 : Int) (gapsX gapsY : List Int) (d0 d1 : Nat) (sz : Nat) (src : Buf)
    (h : (d0 : Int) ≠ g0 * c0 ∨ (d1 : Int) ≠ g1 * c1 ∨ g1 + 1 ≠ gapsX.length ∨ g0 + 1 ≠ gapsY.length) :
    processFrame ⟨[g0, g1], [c0, c1], gapsX, gapsY⟩ [d0, d1] sz src = .dropped := by
  have hv : configurationValid ⟨[g0, g1], [c0, c1], gapsX, gapsY⟩ [d0, d1] = some false := by
    show (if (d0 : Int) ≠ g0 * c0 then some false
      else if (d1 : Int) ≠ g1 * c1 then some false
      else some (decide (g1 + 1 = gapsX.length) && decide (g0 + 1 = gapsY.length))) = some false
    by_cases h0 : (d0 : Int) ≠ g0 * c0
    · rw [if_pos h0]
    · rw [if_neg h0]
      by_cases h1 : (d1 : Int) ≠ g1 * c1
      · rw [if_pos h1]
      · rw [if_neg h1]
        rcases h with h | h | h | h
        · exact absurd h h0
        · exact absurd h h1
        · simp [h]
        · simp [h]
  unfold processFrame
  rw [hv]

/-- Outside the claim of C20, recorded: a frame arriving before the plugin is configured indexes empty
vectors. -/
theorem C20_unconfigured_ub (dims : List Nat) (sz : Nat) (src : Buf) :
    processFrame {} dims sz src = .ub := by
  unfold processFrame configurationValid
  cases dims <;> rfl

/-- Outside the claim of C20, recorded: a negative gap is accepted and makes the copy write before the
image. -/
theorem C20_negative_gap_ub :
    processFrame ⟨[1, 1], [1, 2], [-1, 1], [0, 0]⟩ [1, 2] 1 ⟨2, fun _ => 7⟩ = .ub := by
  simp [processFrame, configurationValid, insertGaps, gapSum, yLoop, rowLoop, xLoop, copy]

/-- Non-vacuity of C20: two chips of 1 × 2 pixels with gaps 1, 2, 0 and a row of gap below. -/
def exLayout : Spec.Layout :=
  { gy := 1, gx := 2, cy := 1, cx := 2, gapsY := [0, 1], gapsX := [1, 2, 0], sz := 1 }

def exImage : Buf := { size := 4, data := fun b => b + 5 }

example : Spec.Complete exLayout ∧ srcHeight exLayout * srcWidth exLayout * exLayout.sz ≤ exImage.size := by
  unfold Spec.Complete; decide

example :
    (match processFrame (Spec.cfg exLayout) [1, 4] 1 exImage with
      | .pushed d m => some (d, (List.range m.size).map m.data)
      | _ => none) = some ([2, 7], [0, 5, 6, 0, 0, 7, 8, 0, 0, 0, 0, 0, 0, 0]) := by
  decide +kernel

end Verif.GapFill
