import Verif.Model.GapFillInt
import Verif.Props.GapFill

/-!
C20 with the arithmetic of C++: gap filling is pixel exact as long as the new image is smaller than 2 GiB.
-/
namespace Verif.GapFill
open Spec

/-- Every source pixel is in the new image at its place, and the rest is zero. -/
def Exact (l : Spec.Layout) (src : Buf) (r : Result) : Prop :=
  ∃ out, r = .pushed [(height l : Int), (width l : Int)] out ∧ out.size = height l * width l * l.sz ∧
    (∀ y x k, y < srcHeight l → x < srcWidth l → k < l.sz →
      out.data (byteAt (width l) l.sz (destY l y) (destX l x) k) = src.data (byteAt (srcWidth l) l.sz y x k)) ∧
    (∀ Y X k, Y < height l → X < width l → k < l.sz → (¬ ∃ y x, y < srcHeight l ∧ x < srcWidth l ∧ Y = destY l y ∧ X = destX l x) →
      out.data (byteAt (width l) l.sz Y X k) = 0)

/-- The numbers of the configuration are numbers of type `int`. -/
def Ints (l : Spec.Layout) : Prop :=
  l.gy < 2 ^ 31 ∧ l.gx < 2 ^ 31 ∧ l.cy < 2 ^ 31 ∧ l.cx < 2 ^ 31 ∧ (∀ g, g ∈ l.gapsX → g < 2 ^ 31) ∧ (∀ g, g ∈ l.gapsY → g < 2 ^ 31)

/-- C20, full statement: for every layout that can be configured and every image of its size. -/
def C20_statement : Prop := ∀ l src, Spec.Complete l → Ints l → srcHeight l * srcWidth l * l.sz ≤ src.size →
  Exact l src (processFrameI (Spec.cfg l) [srcHeight l, srcWidth l] l.sz src)

/-- The new image is smaller than 2 GiB, and so are its lengths. -/
structure Small (l : Spec.Layout) : Prop where
  gy : l.gy + 1 < 2 ^ 31
  gx : l.gx + 1 < 2 ^ 31
  height : height l < 2 ^ 31
  width : width l < 2 ^ 31
  pixels : Spec.height l * Spec.width l < 2 ^ 31
  bytes : Spec.height l * Spec.width l * l.sz < 2 ^ 31
  chip : l.cx * l.sz < 2 ^ 31

/-! ## Numbers -/

theorem i32_ok (n : Nat) (h : n < 2 ^ 31) : i32 (n : Int) = some (n : Int) := if_pos ⟨by omega, by omega⟩
theorem u64_ok (n : Nat) (h : n < 2 ^ 64) : u64 (n : Int) = (n : Int) := Int.emod_eq_of_lt (by omega) (by omega)
theorem wrap_ok (n : Nat) (h : n < 2 ^ 31) : wrap (n : Int) = (n : Int) := by
  unfold wrap
  rw [Int.emod_eq_of_lt (by omega) (by omega)]
  omega

theorem width_ge (l : Layout) : srcWidth l ≤ width l := Nat.le_add_right _ _
theorem height_ge (l : Layout) : srcHeight l ≤ height l := Nat.le_add_right _ _

/-- A number of a pixel of the new image in bytes. -/
theorem bytes_of (l : Layout) (h : Small l) (n : Nat) (hn : n ≤ height l * width l) : n < 2 ^ 31 ∧ n * l.sz < 2 ^ 31 := by
  have := h.pixels
  have := h.bytes
  have := Nat.mul_le_mul_right l.sz hn
  omega

theorem valid_eq (l : Layout) (hc : Complete l) (h : Small l) : configurationValidI (Spec.cfg l) [srcHeight l, srcWidth l] = some true := by
  obtain ⟨hx, hy⟩ := hc
  have h1 := h.height; have h2 := h.width; have h3 := width_ge l; have h4 := height_ge l; have h5 := h.gx; have h6 := h.gy
  have e0 : (l.gy : Int) * (l.cy : Int) = ((srcHeight l : Nat) : Int) := by unfold srcHeight; push_cast; rfl
  have e1 : (l.gx : Int) * (l.cx : Int) = ((srcWidth l : Nat) : Int) := by unfold srcWidth; push_cast; rfl
  have e2 : (l.gx : Int) + 1 = ((l.gx + 1 : Nat) : Int) := by push_cast; rfl
  have e3 : (l.gy : Int) + 1 = ((l.gy + 1 : Nat) : Int) := by push_cast; rfl
  have hgf : gapsFit (l.gx : Int) (l.gy : Int) (Spec.cfg l) = some true := by
    unfold gapsFit
    rw [e2, e3, i32_ok _ (by omega), i32_ok _ (by omega)]
    simp only [Option.bind_some, u64_ok _ (show l.gx + 1 < 2 ^ 64 by omega), u64_ok _ (show l.gy + 1 < 2 ^ 64 by omega)]
    simp only [Spec.cfg, List.length_map, hx, hy]
    simp
  show ((i32 ((l.gy : Int) * (l.cy : Int))).bind fun p => if ((srcHeight l : Nat) : Int) ≠ u64 p then some false
    else (i32 ((l.gx : Int) * (l.cx : Int))).bind fun q => if ((srcWidth l : Nat) : Int) ≠ u64 q then some false else gapsFit l.gx l.gy (Spec.cfg l)) = some true
  rw [e0, e1, i32_ok _ (by omega), Option.bind_some, u64_ok _ (by omega), if_neg (fun h => h rfl), i32_ok _ (by omega), Option.bind_some, u64_ok _ (by omega),
    if_neg (fun h => h rfl), hgf]

theorem length_eq (g : List Nat) (s : Nat) (h : s + g.sum < 2 ^ 31) : ∀ n, n ≤ g.length →
    lengthI (s : Int) (g.map (fun (n : Nat) => (n : Int))) n = some ((s + gapsBefore g n : Nat) : Int) := by
  intro n
  induction n with
  | zero =>
    intro _
    show i32 (s : Int) = _
    rw [i32_ok _ (by omega)]
    simp [gapsBefore]
  | succ n ih =>
    intro hn
    unfold lengthI
    rw [ih (by omega), getElem_map _ _ (by omega)]
    have e : ((s + gapsBefore g n : Nat) : Int) + ((g[n] : Nat) : Int) = ((s + gapsBefore g (n + 1) : Nat) : Int) := by
      rw [gapsBefore_succ _ _ (by omega)]; push_cast; omega
    have := gapsBefore_le g (n + 1)
    show i32 _ = _
    rw [e, i32_ok _ (by omega)]

theorem processI_true (c : Cfg) (d : List Nat) (n : Nat) (src : Buf) (h : configurationValidI c d = some true) :
    processFrameI c d n src = insertGapsI c d n src := by unfold processFrameI; rw [h]

theorem process_true (c : Cfg) (d : List Nat) (n : Nat) (src : Buf) (h : configurationValid c d = some true) :
    processFrame c d n src = insertGaps c d n src := by unfold processFrame; rw [h]

theorem fill_pos (c : Cfg) (g0 g1 c0 c1 d1 imgX imgY p b : Int) (size : Nat) (src : Buf) (hp : i32 (imgX * imgY) = some p) (hn : ¬ p < 0)
    (hb : u64 (p * size) = b) : fillI c g0 g1 c0 c1 d1 imgX imgY size src =
      match yLoopI { src := src, width := d1, imgX := imgX, chipX := c1, size := size } c.gapsX c.gapsY g1.toNat c0
          { size := b.toNat, data := fun _ => 0 } g0.toNat with
      | some r => .pushed [imgY, imgX] r.1
      | none => .ub := by
  unfold fillI
  rw [hp]
  simp only [if_neg hn, hb]
  rfl

/-! ## The loops -/

section
variable (l : Spec.Layout) (src : Buf) (hs : Small l) (hc : Complete l)
include hs hc

theorem chipRow_eq (y j : Nat) (hy : y < srcHeight l) (hj : j < l.gx) (out : Buf) :
    chipRow (consts l src) (l.gapsX[j]'(by have := hc.1; omega) : Int) (gapsBefore l.gapsX j : Int) (y : Int) (destY l y : Int) j out =
      (copy out (((destY l y : Int) * (width l : Int) + (gapsBefore l.gapsX (j + 1) : Int) + (j : Int) * (l.cx : Int)) * (l.sz : Int))
        src (((y : Int) * (srcWidth l : Int) + (j : Int) * (l.cx : Int)) * (l.sz : Int)) ((l.cx : Int) * (l.sz : Int))).map
          fun out => (out, (gapsBefore l.gapsX (j + 1) : Int)) := by
  have hlen : j < l.gapsX.length := by have := hc.1; omega
  have hg := gapsBefore_succ l.gapsX j hlen
  have hgl := gapsBefore_le l.gapsX (j + 1)
  have hjw : (j + 1) * l.cx ≤ srcWidth l := Nat.mul_le_mul_right _ hj
  rw [Nat.add_mul, Nat.one_mul] at hjw
  have hw := hs.width
  have hww : width l = srcWidth l + l.gapsX.sum := rfl
  have hrow : (destY l y + 1) * width l ≤ height l * width l := Nat.mul_le_mul_right _ (destY_lt l y hy)
  rw [Nat.add_mul, Nat.one_mul] at hrow
  have hsrow : (y + 1) * srcWidth l ≤ height l * width l :=
    Nat.mul_le_mul (Nat.le_trans hy (height_ge l)) (width_ge l)
  rw [Nat.add_mul, Nat.one_mul] at hsrow
  have b1 := bytes_of l hs (destY l y * width l + gapsBefore l.gapsX (j + 1) + j * l.cx) (by omega)
  have b2 := bytes_of l hs (y * srcWidth l + j * l.cx) (by omega)
  have b3 := hs.chip
  have hpix := hs.pixels
  have e1 : (gapsBefore l.gapsX j : Int) + (l.gapsX[j] : Int) = ((gapsBefore l.gapsX (j + 1) : Nat) : Int) := by rw [hg]; push_cast; rfl
  have e2 : (j : Int) * (l.cx : Int) = ((j * l.cx : Nat) : Int) := by push_cast; rfl
  have e3 : (destY l y : Int) * (width l : Int) = ((destY l y * width l : Nat) : Int) := by push_cast; rfl
  have e4 : ((destY l y * width l : Nat) : Int) + ((gapsBefore l.gapsX (j + 1) : Nat) : Int) = ((destY l y * width l + gapsBefore l.gapsX (j + 1) : Nat) : Int) := by push_cast; rfl
  have e5 : ((destY l y * width l + gapsBefore l.gapsX (j + 1) : Nat) : Int) + ((j * l.cx : Nat) : Int) =
    ((destY l y * width l + gapsBefore l.gapsX (j + 1) + j * l.cx : Nat) : Int) := by push_cast; rfl
  have e6 : ((destY l y * width l + gapsBefore l.gapsX (j + 1) + j * l.cx : Nat) : Int) * (l.sz : Int) =
    (((destY l y * width l + gapsBefore l.gapsX (j + 1) + j * l.cx) * l.sz : Nat) : Int) := by push_cast; rfl
  have e7 : (y : Int) * (srcWidth l : Int) = ((y * srcWidth l : Nat) : Int) := by push_cast; rfl
  have e8 : ((y * srcWidth l : Nat) : Int) + ((j * l.cx : Nat) : Int) = ((y * srcWidth l + j * l.cx : Nat) : Int) := by push_cast; rfl
  have e9 : ((y * srcWidth l + j * l.cx : Nat) : Int) * (l.sz : Int) = (((y * srcWidth l + j * l.cx) * l.sz : Nat) : Int) := by push_cast; rfl
  have e10 : (l.cx : Int) * (l.sz : Int) = ((l.cx * l.sz : Nat) : Int) := by push_cast; rfl
  have hyb : y < 2 ^ 31 := by have := height_ge l; have := hs.height; omega
  have hcb : l.cx < 2 ^ 31 := by omega
  show ((i32 ((gapsBefore l.gapsX j : Int) + (l.gapsX[j] : Int))).bind fun offX =>
    (i32 ((j : Int) * (l.cx : Int))).bind fun col => (i32 ((destY l y : Int) * (width l : Int))).bind fun d0 => (i32 (d0 + offX)).bind fun d1 => (i32 (d1 + col)).bind fun d =>
    (copy out (wrap (u64 (u64 d * (l.sz : Int)))) src (wrap (u64 (u64 (wrap (u64 (u64 (u64 (y : Int) * (srcWidth l : Int)) + u64 col))) * (l.sz : Int))))
      (u64 (u64 (l.cx : Int) * (l.sz : Int)))).map fun out => (out, offX)) = _
  rw [e1, i32_ok _ (by omega), Option.bind_some, e2, i32_ok _ (by omega), Option.bind_some, e3, i32_ok _ (by omega), Option.bind_some, e4, i32_ok _ (by omega),
    Option.bind_some, e5, i32_ok _ (by omega), Option.bind_some, u64_ok _ (by omega), e6, u64_ok _ (by omega), wrap_ok _ b1.2,
    u64_ok y (by omega), e7, u64_ok (y * srcWidth l) (by omega), u64_ok (j * l.cx) (by omega), e8, u64_ok (y * srcWidth l + j * l.cx) (by omega), wrap_ok _ b2.1,
    u64_ok (y * srcWidth l + j * l.cx) (by omega), e9, u64_ok ((y * srcWidth l + j * l.cx) * l.sz) (by omega), wrap_ok _ b2.2, u64_ok l.cx (by omega), e10,
    u64_ok (l.cx * l.sz) (by omega)]

theorem xLoop_eq (y : Nat) (hy : y < srcHeight l) (out : Buf) : ∀ n, n ≤ l.gx →
    xLoopI (consts l src) (l.gapsX.map (fun (n : Nat) => (n : Int))) (y : Int) (destY l y : Int) out n =
      xLoop (consts l src) (l.gapsX.map (fun (n : Nat) => (n : Int))) (y : Int) (destY l y : Int) out n ∧
    ∀ o f, xLoop (consts l src) (l.gapsX.map (fun (n : Nat) => (n : Int))) (y : Int) (destY l y : Int) out n = some (o, f) → f = (gapsBefore l.gapsX n : Int) := by
  intro n
  induction n with
  | zero =>
    intro _
    refine ⟨rfl, fun o f h => ?_⟩
    have h : some (out, (0 : Int)) = some (o, f) := h
    cases h
    simp [gapsBefore]
  | succ n ih =>
    intro hn
    obtain ⟨h1, h2⟩ := ih (by omega)
    have hlen : n < l.gapsX.length := by have := hc.1; omega
    have hg : (gapsBefore l.gapsX n : Int) + ((l.gapsX[n] : Nat) : Int) = (gapsBefore l.gapsX (n + 1) : Int) := by
      rw [gapsBefore_succ _ _ hlen]; push_cast; rfl
    unfold xLoopI xLoop
    rw [h1, getElem_map _ _ hlen]
    cases e : xLoop (consts l src) (l.gapsX.map (fun (n : Nat) => (n : Int))) (y : Int) (destY l y : Int) out n with
    | none => exact ⟨rfl, fun o f h => (by cases h)⟩
    | some v =>
      obtain ⟨o, f⟩ := v
      obtain rfl := h2 o f e
      simp only
      rw [chipRow_eq l src hs hc y n hy (by omega) o, hg]
      refine ⟨rfl, fun o' f' h => ?_⟩
      cases hcp : copy o (((destY l y : Int) * (width l : Int) + (gapsBefore l.gapsX (n + 1) : Int) + (n : Int) * (l.cx : Int)) * (l.sz : Int)) src
        (((y : Int) * (srcWidth l : Int) + (n : Int) * (l.cx : Int)) * (l.sz : Int)) ((l.cx : Int) * (l.sz : Int)) with
      | none =>
        have h : Option.map (fun out => (out, (gapsBefore l.gapsX (n + 1) : Int))) (copy o (((destY l y : Int) * (width l : Int) + (gapsBefore l.gapsX (n + 1) : Int) +
          (n : Int) * (l.cx : Int)) * (l.sz : Int)) src (((y : Int) * (srcWidth l : Int) + (n : Int) * (l.cx : Int)) * (l.sz : Int)) ((l.cx : Int) * (l.sz : Int))) = some (o', f') := h
        rw [hcp] at h; cases h
      | some w =>
        have h : Option.map (fun out => (out, (gapsBefore l.gapsX (n + 1) : Int))) (copy o (((destY l y : Int) * (width l : Int) + (gapsBefore l.gapsX (n + 1) : Int) +
          (n : Int) * (l.cx : Int)) * (l.sz : Int)) src (((y : Int) * (srcWidth l : Int) + (n : Int) * (l.cx : Int)) * (l.sz : Int)) ((l.cx : Int) * (l.sz : Int))) = some (o', f') := h
        rw [hcp] at h; cases h; rfl

theorem rowLoop_eq (i : Nat) (hi : i < l.gy) (out : Buf) : ∀ n, n ≤ l.cy →
    rowLoopI (consts l src) (l.gapsX.map (fun (n : Nat) => (n : Int))) l.gx (l.cy : Int) (i : Int) (gapsBefore l.gapsY (i + 1) : Int) out n =
      rowLoop (consts l src) (l.gapsX.map (fun (n : Nat) => (n : Int))) l.gx (l.cy : Int) (i : Int) (gapsBefore l.gapsY (i + 1) : Int) out n := by
  intro n
  induction n with
  | zero => intro _; rfl
  | succ n ih =>
    intro hn
    unfold rowLoopI rowLoop
    rw [ih (by omega)]
    cases e : rowLoop (consts l src) (l.gapsX.map (fun (n : Nat) => (n : Int))) l.gx (l.cy : Int) (i : Int) (gapsBefore l.gapsY (i + 1) : Int) out n with
    | none => rfl
    | some o =>
      have hrow : i * l.cy + n < srcHeight l := digits_lt _ _ _ _ hi (by omega)
      have hdiv : (i * l.cy + n) / l.cy = i := by
        rw [Nat.add_comm, Nat.add_mul_div_right _ _ (by omega), Nat.div_eq_of_lt (by omega)]; omega
      have h0 : (i : Int) * (l.cy : Int) = ((i * l.cy : Nat) : Int) := by push_cast; rfl
      have h1 : ((i * l.cy : Nat) : Int) + (n : Int) = ((i * l.cy + n : Nat) : Int) := by push_cast; rfl
      have h2 : ((i * l.cy + n : Nat) : Int) + (gapsBefore l.gapsY (i + 1) : Int) = (destY l (i * l.cy + n) : Int) := by
        unfold destY; rw [hdiv]; push_cast; rfl
      have hd := destY_lt l _ hrow
      have hh := hs.height
      have hge := height_ge l
      simp only [h0]
      rw [i32_ok _ (by omega), Option.bind_some, h1, i32_ok _ (by omega), Option.bind_some, h2, i32_ok _ (by omega), Option.bind_some,
        (xLoop_eq l src hs hc (i * l.cy + n) hrow o l.gx (Nat.le_refl _)).1]

theorem yLoop_eq (out : Buf) : ∀ n, n ≤ l.gy →
    yLoopI (consts l src) (l.gapsX.map (fun (n : Nat) => (n : Int))) (l.gapsY.map (fun (n : Nat) => (n : Int))) l.gx (l.cy : Int) out n =
      yLoop (consts l src) (l.gapsX.map (fun (n : Nat) => (n : Int))) (l.gapsY.map (fun (n : Nat) => (n : Int))) l.gx (l.cy : Int) out n ∧
    ∀ o f, yLoop (consts l src) (l.gapsX.map (fun (n : Nat) => (n : Int))) (l.gapsY.map (fun (n : Nat) => (n : Int))) l.gx (l.cy : Int) out n = some (o, f) →
      f = (gapsBefore l.gapsY n : Int) := by
  intro n
  induction n with
  | zero =>
    intro _
    refine ⟨rfl, fun o f h => ?_⟩
    have h : some (out, (0 : Int)) = some (o, f) := h
    cases h
    simp [gapsBefore]
  | succ n ih =>
    intro hn
    obtain ⟨h1, h2⟩ := ih (by omega)
    have hlen : n < l.gapsY.length := by have := hc.2; omega
    have hg : (gapsBefore l.gapsY n : Int) + ((l.gapsY[n] : Nat) : Int) = ((gapsBefore l.gapsY (n + 1) : Nat) : Int) := by
      rw [gapsBefore_succ _ _ hlen]; push_cast; rfl
    have hgl := gapsBefore_le l.gapsY (n + 1)
    have hh : srcHeight l + l.gapsY.sum < 2 ^ 31 := hs.height
    unfold yLoopI yLoop
    rw [h1, getElem_map _ _ hlen]
    cases e : yLoop (consts l src) (l.gapsX.map (fun (n : Nat) => (n : Int))) (l.gapsY.map (fun (n : Nat) => (n : Int))) l.gx (l.cy : Int) out n with
    | none => exact ⟨rfl, fun o f h => (by cases h)⟩
    | some v =>
      obtain ⟨o, f⟩ := v
      obtain rfl := h2 o f e
      simp only
      rw [hg, i32_ok _ (by omega), Option.bind_some]
      simp only [Int.toNat_natCast]
      rw [rowLoop_eq l src hs hc n (by omega) o l.cy (Nat.le_refl _)]
      refine ⟨rfl, fun o' f' h => ?_⟩
      cases hr : rowLoop (consts l src) (l.gapsX.map (fun (n : Nat) => (n : Int))) l.gx (l.cy : Int) (n : Int) (gapsBefore l.gapsY (n + 1) : Int) o l.cy with
      | none => rw [hr] at h; cases h
      | some w => rw [hr] at h; cases h; rfl

theorem fill_eq : fillI (Spec.cfg l) l.gy l.gx l.cy l.cx (srcWidth l) (width l) (height l) l.sz src =
    match yLoop (consts l src) (l.gapsX.map (fun (n : Nat) => (n : Int))) (l.gapsY.map (fun (n : Nat) => (n : Int))) l.gx (l.cy : Int)
      { size := height l * width l * l.sz, data := fun _ => 0 } l.gy with
    | some r => .pushed [(height l : Int), (width l : Int)] r.1
    | none => .ub := by
  have hprod : (width l : Int) * (height l : Int) = ((height l * width l : Nat) : Int) := by
    push_cast; rw [Int.mul_comm]
  have hb : ((height l * width l : Nat) : Int) * (l.sz : Int) = ((height l * width l * l.sz : Nat) : Int) := by push_cast; rfl
  have hy' := (yLoop_eq l src hs hc { size := height l * width l * l.sz, data := fun _ => 0 } l.gy (Nat.le_refl _)).1
  have hp := hs.pixels
  have hbb := hs.bytes
  have hlt : height l * width l * l.sz < 2 ^ 64 := by omega
  have hn : ¬ (((height l * width l : Nat) : Int) < 0) := by omega
  have hi : i32 ((width l : Int) * (height l : Int)) = some ((height l * width l : Nat) : Int) := by rw [hprod, i32_ok _ hp]
  have hu : u64 (((height l * width l : Nat) : Int) * (l.sz : Int)) = ((height l * width l * l.sz : Nat) : Int) := by rw [hb, u64_ok _ hlt]
  rw [fill_pos _ _ _ _ _ _ _ _ _ _ _ _ hi hn hu, Int.toNat_natCast, Int.toNat_natCast, Int.toNat_natCast]
  have : ({ src := src, width := (srcWidth l : Int), imgX := (width l : Int), chipX := (l.cx : Int), size := (l.sz : Int) } : Loop) = consts l src := rfl
  rw [this]
  simp only [Spec.cfg]
  rw [hy']

theorem insert_left : insertGapsI (Spec.cfg l) [srcHeight l, srcWidth l] l.sz src = fillI (Spec.cfg l) l.gy l.gx l.cy l.cx (srcWidth l) (width l) (height l) l.sz src := by
  obtain ⟨hx, hy⟩ := hc
  have htx : gapsBefore l.gapsX (l.gx + 1) = l.gapsX.sum := by
    unfold gapsBefore; rw [List.take_of_length_le (by omega)]
  have hty : gapsBefore l.gapsY (l.gy + 1) = l.gapsY.sum := by
    unfold gapsBefore; rw [List.take_of_length_le (by omega)]
  have hlx := length_eq l.gapsX (srcWidth l) hs.width (l.gx + 1) (by omega)
  have hly := length_eq l.gapsY (srcHeight l) hs.height (l.gy + 1) (by omega)
  rw [htx] at hlx; rw [hty] at hly
  have h1 : ((l.gx : Int) + 1).toNat = l.gx + 1 := by omega
  have h2 : ((l.gy : Int) + 1).toNat = l.gy + 1 := by omega
  have e0 : (l.gy : Int) * (l.cy : Int) = ((srcHeight l : Nat) : Int) := by unfold srcHeight; push_cast; rfl
  have e1 : (l.gx : Int) * (l.cx : Int) = ((srcWidth l : Nat) : Int) := by unfold srcWidth; push_cast; rfl
  show (match lengthI ((l.gx : Int) * (l.cx : Int)) (l.gapsX.map (fun (n : Nat) => (n : Int))) ((l.gx : Int) + 1).toNat,
    lengthI ((l.gy : Int) * (l.cy : Int)) (l.gapsY.map (fun (n : Nat) => (n : Int))) ((l.gy : Int) + 1).toNat with
    | some imgX, some imgY => fillI (Spec.cfg l) l.gy l.gx l.cy l.cx (srcWidth l) imgX imgY l.sz src
    | _, _ => .ub) = _
  rw [e0, e1, h1, h2, hlx, hly]
  rfl

omit hs in
theorem insert_right : insertGaps (Spec.cfg l) [srcHeight l, srcWidth l] l.sz src =
    match yLoop (consts l src) (l.gapsX.map (fun (n : Nat) => (n : Int))) (l.gapsY.map (fun (n : Nat) => (n : Int))) l.gx (l.cy : Int)
      { size := height l * width l * l.sz, data := fun _ => 0 } l.gy with
    | some r => .pushed [(height l : Int), (width l : Int)] r.1
    | none => .ub := by
  obtain ⟨hx, hy⟩ := hc
  have htx : gapsBefore l.gapsX (l.gx + 1) = l.gapsX.sum := by
    unfold gapsBefore; rw [List.take_of_length_le (by omega)]
  have hty : gapsBefore l.gapsY (l.gy + 1) = l.gapsY.sum := by
    unfold gapsBefore; rw [List.take_of_length_le (by omega)]
  have hgx := gapSum_eq l.gapsX (l.gx + 1) (by omega)
  have hgy := gapSum_eq l.gapsY (l.gy + 1) (by omega)
  rw [htx] at hgx; rw [hty] at hgy
  have h1 : ((l.gx : Int) + 1).toNat = l.gx + 1 := by omega
  have h2 : ((l.gy : Int) + 1).toNat = l.gy + 1 := by omega
  have e0 : (l.gy : Int) * (l.cy : Int) = ((srcHeight l : Nat) : Int) := by unfold srcHeight; push_cast; rfl
  have e1 : (l.gx : Int) * (l.cx : Int) = ((srcWidth l : Nat) : Int) := by unfold srcWidth; push_cast; rfl
  have hX : ((srcWidth l : Nat) : Int) + ((l.gapsX.sum : Nat) : Int) = (width l : Int) := by unfold width; push_cast; rfl
  have hY : ((srcHeight l : Nat) : Int) + ((l.gapsY.sum : Nat) : Int) = (height l : Int) := by unfold height; push_cast; rfl
  have hprod : (width l : Int) * (height l : Int) = ((height l * width l : Nat) : Int) := by
    push_cast; rw [Int.mul_comm]
  have hn : ¬ (((height l * width l : Nat) : Int) < 0) := by omega
  unfold insertGaps
  simp only [Spec.cfg, h1, h2, hgx, hgy, e0, e1, hX, hY, hprod]
  rw [if_neg hn]
  simp only [Int.toNat_natCast]
  have : ({ src := src, width := (srcWidth l : Int), imgX := (width l : Int), chipX := (l.cx : Int), size := (l.sz : Int) } : Loop) = consts l src := rfl
  rw [this]
  cases yLoop (consts l src) (l.gapsX.map (fun (n : Nat) => (n : Int))) (l.gapsY.map (fun (n : Nat) => (n : Int))) l.gx (l.cy : Int)
        { size := height l * width l * l.sz, data := fun _ => 0 } l.gy <;> rfl

/-- With less than 2 GiB the plugin computes as with unbounded numbers. -/
theorem process_eq : processFrameI (Spec.cfg l) [srcHeight l, srcWidth l] l.sz src = processFrame (Spec.cfg l) [srcHeight l, srcWidth l] l.sz src := by
  have hvalid : configurationValid (Spec.cfg l) [srcHeight l, srcWidth l] = some true := by
    obtain ⟨hx, hy⟩ := hc
    simp [configurationValid, Spec.cfg, srcHeight, srcWidth, hx, hy]
  rw [processI_true _ _ _ _ (valid_eq l hc hs), process_true _ _ _ _ hvalid, insert_left l src hs hc, fill_eq l src hs hc, insert_right l src hc]

end

/-- C20, what holds: a new image below 2 GiB is exact. -/
theorem C20_partial (l : Spec.Layout) (src : Buf) (hc : Spec.Complete l) (hs : Small l) (hsrc : srcHeight l * srcWidth l * l.sz ≤ src.size) :
    Exact l src (processFrameI (Spec.cfg l) [srcHeight l, srcWidth l] l.sz src) := by
  rw [process_eq l src hs hc]
  exact C20_exact l src hc hsrc

/-- Non-vacuity. -/
example : Small exLayout ∧ Spec.Complete exLayout ∧ srcHeight exLayout * srcWidth exLayout * exLayout.sz ≤ exImage.size :=
  ⟨⟨by decide, by decide, by decide, by decide, by decide, by decide, by decide⟩, by unfold Spec.Complete; decide, by decide⟩

/-! ## Larger images -/

/-- A single chip without gaps. -/
def single (h w sz : Nat) : Spec.Layout := { gy := 1, gx := 1, cy := h, cx := w, gapsY := [0, 0], gapsX := [0, 0], sz := sz }

/-- 2^31 pixels: the product of the lengths overflows. -/
theorem C20_pixels (src : Buf) : processFrameI (Spec.cfg (single 65536 32768 1)) [65536, 32768] 1 src = .ub := by
  have hv : configurationValidI (Spec.cfg (single 65536 32768 1)) [65536, 32768] = some true := by decide +kernel
  have hx : lengthI ((1 : Int) * 32768) [0, 0] 2 = some 32768 := by decide +kernel
  have hy : lengthI ((1 : Int) * 65536) [0, 0] 2 = some 65536 := by decide +kernel
  have hp : i32 ((32768 : Int) * 65536) = none := by decide +kernel
  unfold processFrameI
  rw [hv]
  show (match lengthI ((1 : Int) * 32768) [0, 0] 2, lengthI ((1 : Int) * 65536) [0, 0] 2 with
    | some imgX, some imgY => fillI (Spec.cfg (single 65536 32768 1)) 1 1 65536 32768 32768 imgX imgY 1 src
    | _, _ => .ub) = .ub
  rw [hx, hy]
  show fillI (Spec.cfg (single 65536 32768 1)) 1 1 65536 32768 32768 32768 65536 1 src = .ub
  unfold fillI
  rw [hp]

/-- Once a row is undefined everything is. -/
theorem row_none (l : Loop) (gapsX : List Int) (gridX : Nat) (chipY yIndex offY : Int) (out : Buf) (m : Nat)
    (h : ∀ o, ((i32 (yIndex * chipY)).bind fun p => (i32 (p + m)).bind fun srcRow => (i32 (srcRow + offY)).bind fun destRow =>
      (xLoopI l gapsX srcRow destRow o gridX).map Prod.fst) = none) : ∀ n, m < n → rowLoopI l gapsX gridX chipY yIndex offY out n = none := by
  intro n hn
  induction n with
  | zero => omega
  | succ n ih =>
    unfold rowLoopI
    by_cases e : m = n
    · subst e
      cases rowLoopI l gapsX gridX chipY yIndex offY out m with
      | none => rfl
      | some o => exact h o
    · rw [ih (by omega)]

theorem copy_neg (out : Buf) (d : Int) (inp : Buf) (s n : Int) (h : d < 0) : copy out d inp s n = none := by
  unfold copy; rw [if_neg (by omega)]

/-- 30000 x 30000 pixels of four bytes: the offset of row 20000 becomes negative, and the copy goes to memory before the image. -/
theorem C20_bytes (src : Buf) : processFrameI (Spec.cfg (single 30000 30000 4)) [30000, 30000] 4 src = .ub := by
  show fillI (Spec.cfg (single 30000 30000 4)) 1 1 30000 30000 30000 30000 30000 4 src = .ub
  unfold fillI
  rw [show i32 ((30000 : Int) * 30000) = some 900000000 from rfl]
  simp only
  rw [if_neg (by decide)]
  have h : ∀ out, yLoopI { src := src, width := 30000, imgX := 30000, chipX := 30000, size := (4 : Nat) } (Spec.cfg (single 30000 30000 4)).gapsX
      (Spec.cfg (single 30000 30000 4)).gapsY (1 : Int).toNat 30000 out (1 : Int).toNat = none := by
    intro out
    show ((i32 ((0 : Int) + 0)).bind fun offY => (rowLoopI { src := src, width := 30000, imgX := 30000, chipX := 30000, size := (4 : Nat) } [0, 0] 1 30000 0 offY out 30000).map
      fun out => (out, offY)) = none
    rw [show i32 ((0 : Int) + 0) = some 0 from rfl, Option.bind_some, row_none _ _ _ _ _ _ _ 20000 ?_ 30000 (by decide)]
    · rfl
    · intro o
      rw [show i32 ((0 : Int) * 30000) = some 0 from rfl, Option.bind_some, show i32 ((0 : Int) + (20000 : Nat)) = some 20000 from rfl, Option.bind_some,
        show i32 ((20000 : Int) + 0) = some 20000 from rfl, Option.bind_some]
      show (chipRow { src := src, width := 30000, imgX := 30000, chipX := 30000, size := (4 : Nat) } 0 0 20000 20000 0 o).map Prod.fst = none
      unfold chipRow
      rw [show i32 ((0 : Int) + 0) = some 0 from rfl, Option.bind_some, show i32 (((0 : Nat) : Int) * 30000) = some 0 from rfl, Option.bind_some,
        show i32 ((20000 : Int) * 30000) = some 600000000 from rfl, Option.bind_some, show i32 ((600000000 : Int) + 0) = some 600000000 from rfl, Option.bind_some,
        show i32 ((600000000 : Int) + 0) = some 600000000 from rfl, Option.bind_some, copy_neg _ _ _ _ _ (show wrap (u64 (u64 600000000 * ((4 : Nat) : Int))) < 0 by decide)]
      rfl
  rw [h]

theorem C20_violated : ¬ C20_statement := by
  intro h
  obtain ⟨out, e, _⟩ := h (single 65536 32768 1) ⟨2 ^ 31, fun _ => 0⟩ ⟨rfl, rfl⟩
    ⟨by decide, by decide, by decide, by decide, by decide, by decide⟩ (by decide)
  rw [show [srcHeight (single 65536 32768 1), srcWidth (single 65536 32768 1)] = [65536, 32768] from rfl, show (single 65536 32768 1).sz = 1 from rfl, C20_pixels] at e
  cases e

/-- Gaps that are negative and larger than the chip: the size of the new image is negative. -/
theorem C20_negative (src : Buf) : processFrameI { grid := [1, 1], chip := [2, 2], gapsX := [-3, 0], gapsY := [0, 0] } [2, 2] 1 src = .ub := rfl

end Verif.GapFill
