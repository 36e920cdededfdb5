import Verif.Model.Pipeline
import Verif.Props.Sum
import Verif.Props.Layout
import Verif.Props.DummyProcess
/-!
C131: what a frame says about its image is true.
C132: the image of a frame reads back from the file as the plugins made it.
-/
namespace Verif.Pipeline
open Verif.Sum (DType)

namespace Spec

/-- Number of pixels. -/
def pixels : List Nat → Nat
  | [] => 1
  | d :: l => d * pixels l

/-- Bytes of a pixel. -/
def bytes : DType → Option Nat
  | .raw8 => some 1
  | .raw16 => some 2
  | .raw32 => some 4
  | .raw64 => some 8
  | .rawFloat => some 4
  | .rawUnknown => none

/-- The image of a frame according to what the frame says: the bytes themselves, or what they decompress to. -/
def meaning (k : Codec) (f : Fr) : Option (List Nat) :=
  match f.comp with
  | .no => some f.image
  | .blosc => k.dec f.image
  | _ => none

/-- What the frame says is true: it has an image, of as many pixels of its type as its dimensions have. -/
def Truthful (k : Codec) (f : Fr) : Prop :=
  ∃ img w, meaning k f = some img ∧ bytes f.dtype = some w ∧ img.length = pixels f.dims * w

/-- The compressor can be undone. -/
def Lossless (k : Codec) : Prop :=
  ∀ level shuffle w x, x.length ≤ maxBuffer → k.dec (k.enc level shuffle w x) = some x

/-- The stage does not change the image. -/
def Keeps : Stage → Prop
  | .pass _ => True
  | .sum => True
  | _ => False

/-- Nothing is done to the image after it was compressed. -/
def BloscLast : List Stage → Prop
  | [] => True
  | .blosc .. :: l => ∀ s ∈ l, Keeps s
  | _ :: l => BloscLast l

/-- No negative numbers in the configuration. -/
def Gaps : Stage → Prop
  | .gapFill c => (∀ g ∈ c.gapsX, 0 ≤ g) ∧ (∀ g ∈ c.gapsY, 0 ≤ g) ∧ (∀ g ∈ c.grid, 0 ≤ g) ∧ (∀ g ∈ c.chip, 0 ≤ g)
  | _ => True

def isBlosc : Stage → Bool
  | .blosc .. => true
  | _ => false

/-- The way without compression. -/
def plain (l : List Stage) : List Stage := l.filter (fun s => !isBlosc s)

/-- Decompressing several times. -/
def decompress (k : Codec) : Nat → List Nat → Option (List Nat)
  | 0, x => some x
  | n + 1, x => (k.dec x).bind (decompress k n)

end Spec
open Spec

/-- C131, full statement: whatever the way, a frame that is truthful at its begin is so at its end. -/
def C131_statement : Prop :=
  ∀ (k : Codec), Lossless k → ∀ (l : List Stage) (f g : Fr), Truthful k f → run k l f = .pushed g → Truthful k g

/-! ## Where it fails -/

/-- A compressor that puts one byte in front. -/
def exCodec : Codec where
  enc _ _ _ x := 0 :: x
  dec
    | [] => none
    | _ :: x => some x

theorem exCodec_lossless : Lossless exCodec := fun _ _ _ _ _ => rfl

/-- One pixel. -/
def exFr : Fr := { dtype := .raw8, dims := [1, 1], comp := .no, image := [7] }

theorem exFr_truthful (k : Codec) : Truthful k exFr := ⟨[7], 1, rfl, rfl, rfl⟩

/-- C131 is false of the code: a compressed frame is compressed again, and says that it is compressed once. -/
theorem C131_violated : ¬ C131_statement := by
  intro h
  obtain ⟨img, w, h1, h2, h3⟩ := h exCodec exCodec_lossless [.blosc 1 2 (fun _ => 0), .blosc 1 2 (fun _ => 0)] exFr
    { exFr with comp := .blosc, image := [0, 0, 7], behind := List.replicate 15 0 } (exFr_truthful _) (by decide)
  cases h1
  cases h2
  exact absurd h3 (by decide)

/-- Gaps are inserted into compressed data. -/
theorem C131_violated_gaps : ∃ g, run exCodec [.blosc 1 2 (fun _ => 0), .gapFill ⟨[1, 1], [1, 1], [0, 1], [0, 0]⟩] exFr = .pushed g ∧
    g.dims = [1, 2] ∧ g.comp = .blosc ∧ ¬ Truthful exCodec g := by
  refine ⟨{ exFr with dims := [1, 2], comp := .blosc, image := [0, 0], behind := [] }, by decide, rfl, rfl, ?_⟩
  rintro ⟨img, w, h1, h2, h3⟩
  cases h1
  cases h2
  exact absurd h3 (by decide)

/-- A compressor that makes one image smaller. -/
def exSmall : Codec where
  enc _ _ _ x := if x = [7, 7, 7, 7] then [1] else 0 :: x
  dec
    | [1] => some [7, 7, 7, 7]
    | 0 :: x => some x
    | _ => none

theorem exSmall_lossless : Lossless exSmall := by
  intro a b w x _
  simp only [exSmall]
  by_cases h : x = [7, 7, 7, 7]
  · rw [if_pos h, h]; rfl
  · rw [if_neg h]; cases x <;> rfl

/-- As compressed data are smaller, what comes out also has bytes that were in the memory of the frame before. -/
theorem C131_violated_behind : ∃ g, run exSmall [.blosc 1 2 (fun _ => 99), .gapFill ⟨[1, 1], [1, 4], [0, 0], [0, 0]⟩]
      { exFr with dims := [1, 4], image := [7, 7, 7, 7] } = .pushed g ∧ g.image = [1, 99, 99, 99] ∧ ¬ Truthful exSmall g := by
  refine ⟨{ exFr with dims := [1, 4], comp := .blosc, image := [1, 99, 99, 99], behind := [] }, by decide, rfl, ?_⟩
  rintro ⟨img, w, h1, _⟩
  cases h1

/-- Negative gaps give an image with dimensions that are no numbers of pixels. -/
theorem C131_violated_negative : ∃ g, run exCodec [.gapFill ⟨[0, 0], [1, 1], [-1], [-1]⟩]
      { dtype := .raw8, dims := [0, 0], comp := .no, image := [] } = .pushed g ∧
    g.dims = [2 ^ 64 - 1, 2 ^ 64 - 1] ∧ g.image.length = 1 ∧ ¬ Truthful exCodec g := by
  refine ⟨{ dtype := .raw8, dims := [2 ^ 64 - 1, 2 ^ 64 - 1], comp := .no, image := [0], behind := [] }, by decide, rfl, rfl, ?_⟩
  rintro ⟨img, w, h1, h2, h3⟩
  cases h1
  cases h2
  exact absurd h3 (by decide)

/-- The sum of a compressed frame is that of the compressed bytes: two frames of the same image have different sums. -/
theorem C131_sum : ∃ g h, run exCodec [.sum] { exFr with dtype := .raw16, dims := [1], image := [7, 0] } = .pushed g ∧
    run exCodec [.blosc 1 2 (fun _ => 0), .sum] { exFr with dtype := .raw16, dims := [1], image := [7, 0] } = .pushed h ∧
    meaning exCodec g = meaning exCodec h ∧ g.sum = some 7 ∧ h.sum = some 1792 :=
  ⟨_, _, rfl, rfl, rfl, by decide, by decide⟩

/-! ## What holds -/

theorem bytesOf_length (n : Nat) (d : Nat → Nat) : (bytesOf n d).length = n := by simp [bytesOf]

theorem bind_pushed {r : Res} {g : Fr → Res} {x : Fr} (h : r.bind g = .pushed x) : ∃ f, r = .pushed f ∧ g f = .pushed x := by
  cases r with
  | pushed f => exact ⟨f, rfl, h⟩
  | dropped => cases h
  | threw => cases h
  | ub => cases h

theorem i32_eq {n m : Int} (h : GapFill.i32 n = some m) : m = n := by
  unfold GapFill.i32 at h
  split at h
  · cases h; rfl
  · cases h

theorem i32_lt {n m : Int} (h : GapFill.i32 n = some m) : m < 2 ^ 31 := by
  unfold GapFill.i32 at h
  split at h
  · next hn => cases h; exact hn.2
  · cases h

theorem length_nonneg (start : Int) (hs : 0 ≤ start) (gaps : List Int) (h : ∀ g ∈ gaps, 0 ≤ g) : ∀ n t, GapFill.lengthI start gaps n = some t → 0 ≤ t := by
  intro n
  induction n with
  | zero => intro t ht; rw [i32_eq ht]; exact hs
  | succ n ih =>
    intro t ht
    unfold GapFill.lengthI at ht
    split at ht
    · next a b ha hb =>
      rw [i32_eq ht]
      have := ih a ha
      have := h b (List.mem_of_getElem? hb)
      omega
    · cases ht

/-- The loops do not change the size of the block they write to. -/
theorem copy_size {out inp o : GapFill.Buf} {d s n : Int} (h : GapFill.copy out d inp s n = some o) : o.size = out.size := by
  unfold GapFill.copy at h
  split at h
  · cases h; rfl
  · cases h

theorem chipRow_size {l : GapFill.Loop} {g o a b : Int} {n : Nat} {out : GapFill.Buf} {r : GapFill.Buf × Int}
    (h : GapFill.chipRow l g o a b n out = some r) : r.1.size = out.size := by
  unfold GapFill.chipRow at h
  simp only [Option.bind_eq_some_iff] at h
  obtain ⟨_, _, _, _, _, _, _, _, _, _, h⟩ := h
  rw [Option.map_eq_some_iff] at h
  obtain ⟨o', h3, h4⟩ := h
  cases h4
  exact copy_size h3

theorem xLoop_size (l : GapFill.Loop) (gx : List Int) (a b : Int) (out : GapFill.Buf) : ∀ n r,
    GapFill.xLoopI l gx a b out n = some r → r.1.size = out.size := by
  intro n
  induction n with
  | zero => intro r h; cases h; rfl
  | succ n ih =>
    intro r h
    unfold GapFill.xLoopI at h
    split at h
    · next o x g h1 h2 =>
      rw [chipRow_size h]
      exact ih _ h1
    · cases h

theorem rowLoop_size (l : GapFill.Loop) (gx : List Int) (m : Nat) (c y o : Int) (out : GapFill.Buf) : ∀ n r,
    GapFill.rowLoopI l gx m c y o out n = some r → r.size = out.size := by
  intro n
  induction n with
  | zero => intro r h; cases h; rfl
  | succ n ih =>
    intro r h
    unfold GapFill.rowLoopI at h
    split at h
    · next o' h1 =>
      simp only [Option.bind_eq_some_iff] at h
      obtain ⟨_, _, _, _, _, _, h⟩ := h
      rw [Option.map_eq_some_iff] at h
      obtain ⟨q, h3, h4⟩ := h
      cases h4
      rw [xLoop_size _ _ _ _ _ _ _ h3]
      exact ih _ h1
    · cases h

theorem yLoop_size (l : GapFill.Loop) (gx gy : List Int) (m : Nat) (c : Int) (out : GapFill.Buf) : ∀ n r,
    GapFill.yLoopI l gx gy m c out n = some r → r.1.size = out.size := by
  intro n
  induction n with
  | zero => intro r h; cases h; rfl
  | succ n ih =>
    intro r h
    unfold GapFill.yLoopI at h
    split at h
    · next o x g h1 h2 =>
      simp only [Option.bind_eq_some_iff] at h
      obtain ⟨_, _, h⟩ := h
      rw [Option.map_eq_some_iff] at h
      obtain ⟨q, h3, h4⟩ := h
      cases h4
      show q.size = _
      rw [rowLoop_size _ _ _ _ _ _ _ _ _ h3]
      exact ih _ h1
    · cases h

theorem fill_size {c : GapFill.Cfg} {g0 g1 c0 c1 d1 imgX imgY : Int} {w : Nat} {src : GapFill.Buf} {d : List Int} {b : GapFill.Buf} (hw : w ≤ 8)
    (h : GapFill.fillI c g0 g1 c0 c1 d1 imgX imgY w src = .pushed d b) : d = [imgY, imgX] ∧ b.size = (imgX * imgY).toNat * w := by
  unfold GapFill.fillI at h
  split at h
  · cases h
  · next p hp =>
    have hlt := i32_lt hp
    rw [← i32_eq hp]
    split at h
    · cases h
    · next hn =>
      split at h
      · next r hr =>
        have hs := yLoop_size _ _ _ _ _ _ _ _ hr
        cases h
        refine ⟨rfl, ?_⟩
        rw [hs]
        show (GapFill.u64 (p * (w : Int))).toNat = _
        obtain ⟨n, rfl⟩ := Int.eq_ofNat_of_zero_le (show 0 ≤ p by omega)
        have hnw : n * w ≤ 2 ^ 31 * 8 := Nat.mul_le_mul (by omega) hw
        have e : ((n : Int) * (w : Int)) = ((n * w : Nat) : Int) := by push_cast; rfl
        unfold GapFill.u64
        rw [e, Int.emod_eq_of_lt (by omega) (by omega), Int.toNat_natCast, Int.toNat_natCast]
      · cases h

theorem gap_dims (c : GapFill.Cfg) (dims : List Nat) (w : Nat) (src : GapFill.Buf) (d : List Int) (b : GapFill.Buf)
    (hg : Gaps (.gapFill c)) (hw : w ≤ 8) (h : GapFill.processFrameI c dims w src = .pushed d b) :
    b.size = pixels (d.map toDim) * w := by
  obtain ⟨hx, hy, h3, h4⟩ := hg
  unfold GapFill.processFrameI at h
  split at h
  · cases h
  · cases h
  · unfold GapFill.insertGapsI at h
    split at h
    · next g0 g1 gr c0 c1 cr d0 d1 dr hg hc _ =>
      rw [hg] at h3
      rw [hc] at h4
      split at h
      · next gx gy hgx hgy =>
        have px := length_nonneg _ (Int.mul_nonneg (h3 g1 (by simp)) (h4 c1 (by simp))) _ hx _ _ hgx
        have py := length_nonneg _ (Int.mul_nonneg (h3 g0 (by simp)) (h4 c0 (by simp))) _ hy _ _ hgy
        obtain ⟨rfl, hs⟩ := fill_size hw h
        rw [hs, Int.toNat_mul px py]
        simp only [List.map_cons, List.map_nil, pixels, toDim, if_pos px, if_pos py, Nat.mul_one]
        rw [Nat.mul_comm gx.toNat]
      · cases h
    · cases h

theorem sumUp_keeps {f g : Fr} (h : sumUp f = .pushed g) :
    g.image = f.image ∧ g.dims = f.dims ∧ g.dtype = f.dtype ∧ g.comp = f.comp ∧ g.behind = f.behind := by
  unfold sumUp at h
  split at h
  · cases h
  · cases h; exact ⟨rfl, rfl, rfl, rfl, rfl⟩
  · cases h; exact ⟨rfl, rfl, rfl, rfl, rfl⟩

theorem sumUp_ok (f : Fr) (h : f.image.length ≤ maxBuffer) : ∃ g, sumUp f = .pushed g := by
  have hs : f.image.length < 2 ^ 31 := by unfold maxBuffer overhead at h; omega
  unfold sumUp Sum.processFrame Sum.attach
  cases f.dtype <;> dsimp only <;> first
    | exact ⟨_, rfl⟩
    | (rw [Sum.calculateSum_small _ _ hs]; exact ⟨_, rfl⟩)

section
attribute [local irreducible] maxBuffer

/-- What plugins that keep the image keep. -/
theorem keeps_run (k : Codec) (l : List Stage) (hl : ∀ s ∈ l, Keeps s) : ∀ (f g : Fr), run k l f = .pushed g →
    g.image = f.image ∧ g.dims = f.dims ∧ g.dtype = f.dtype ∧ g.comp = f.comp := by
  induction l with
  | nil => intro f g h; cases h; exact ⟨rfl, rfl, rfl, rfl⟩
  | cons s l ih =>
    intro f g h
    obtain ⟨f1, h1, h2⟩ := bind_pushed h
    have hs := hl s List.mem_cons_self
    obtain ⟨a, b, c, d⟩ := ih (fun x hx => hl x (List.mem_cons_of_mem _ hx)) f1 g h2
    cases s with
    | pass keep =>
      cases keep with
      | true => cases h1; exact ⟨a, b, c, d⟩
      | false => cases h1
    | sum =>
      obtain ⟨p, q, r, t, _⟩ := sumUp_keeps h1
      exact ⟨a.trans p, b.trans q, c.trans r, d.trans t⟩
    | gapFill c => exact absurd hs id
    | blosc _ _ _ => exact absurd hs id

/-- Whether they push a frame does not depend on its image. -/
theorem keeps_push (k : Codec) (l : List Stage) (hl : ∀ s ∈ l, Keeps s) : ∀ (f f' g : Fr), run k l f' = .pushed g →
    f.image.length ≤ maxBuffer → ∃ p, run k l f = .pushed p := by
  induction l with
  | nil => intro f f' g _ _; exact ⟨f, rfl⟩
  | cons s l ih =>
    intro f f' g h hm
    obtain ⟨f1, h1, h2⟩ := bind_pushed h
    have hs := hl s List.mem_cons_self
    have ih := ih (fun x hx => hl x (List.mem_cons_of_mem _ hx))
    cases s with
    | pass keep =>
      cases keep with
      | true => exact ih f f1 g h2 hm
      | false => cases h1
    | sum =>
      obtain ⟨q, hq⟩ := sumUp_ok f hm
      obtain ⟨e, _⟩ := sumUp_keeps hq
      obtain ⟨p, hp⟩ := ih q f1 g h2 (by rw [e]; exact hm)
      exact ⟨p, by simp only [run, Stage.work, hq, Res.bind, hp]⟩
    | gapFill c => exact absurd hs id
    | blosc _ _ _ => exact absurd hs id

theorem plain_keeps (l : List Stage) (hl : ∀ s ∈ l, Keeps s) : plain l = l := by
  unfold plain
  rw [List.filter_eq_self]
  intro s hs
  have := hl s hs
  cases s with
  | pass _ => rfl
  | sum => rfl
  | gapFill _ => rfl
  | blosc _ _ _ => exact absurd this id

theorem sizeOf_bytes (t : DType) : sizeOf t = bytes t := by cases t <;> rfl

/-- A truthful frame that is not compressed. -/
theorem truthful_plain (k : Codec) (f : Fr) (hc : f.comp = .no) :
    Truthful k f ↔ ∃ w, sizeOf f.dtype = some w ∧ f.image.length = pixels f.dims * w := by
  unfold Truthful meaning
  rw [hc, sizeOf_bytes]
  dsimp only
  constructor
  · rintro ⟨img, w, h1, h2, h3⟩; cases h1; exact ⟨w, h2, h3⟩
  · rintro ⟨w, h2, h3⟩; exact ⟨_, w, rfl, h2, h3⟩

theorem gaps_truthful (k : Codec) (c : GapFill.Cfg) (f g : Fr) (hg : Gaps (.gapFill c)) (hc : f.comp = .no)
    (h : insertGaps c f = .pushed g) : Truthful k g ∧ g.comp = .no ∧ g.dtype = f.dtype := by
  unfold insertGaps at h
  split at h
  · cases h
  · next w hw =>
    split at h
    · cases h
    · cases h
    · next d b hb =>
      cases h
      refine ⟨?_, hc, rfl⟩
      rw [truthful_plain k _ (by exact hc)]
      refine ⟨w, hw, ?_⟩
      show (bytesOf b.size b.data).length = _
      rw [bytesOf_length]
      exact gap_dims c _ w _ d b hg (by cases hd : f.dtype <;> rw [hd] at hw <;> cases hw <;> decide) hb

/-- What holds: on every way on which nothing is done to the image after its compression, with gaps that are not negative, a
truthful frame that is not compressed ends truthful, and its image is that of the same way without compression. -/
theorem C131_partial (k : Codec) (hk : Lossless k) (l : List Stage) : ∀ (f g : Fr), BloscLast l → (∀ s ∈ l, Gaps s) →
    Truthful k f → f.comp = .no → run k l f = .pushed g →
    Truthful k g ∧ (g.comp = .no ∨ g.comp = .blosc) ∧
      ∃ p, run k (plain l) f = .pushed p ∧ meaning k g = some p.image ∧ g.dims = p.dims ∧ g.dtype = p.dtype := by
  induction l with
  | nil =>
    intro f g _ _ hf hc h
    cases h
    exact ⟨hf, Or.inl hc, f, rfl, by unfold meaning; rw [hc], rfl, rfl⟩
  | cons s l ih =>
    intro f g hl hg hf hc h
    obtain ⟨f1, h1, h2⟩ := bind_pushed h
    have hg' : ∀ s ∈ l, Gaps s := fun x hx => hg x (List.mem_cons_of_mem _ hx)
    cases s with
    | pass keep =>
      cases keep with
      | true => cases h1; exact ih f g hl hg' hf hc h2
      | false => cases h1
    | sum =>
      obtain ⟨a, b, c, d, _⟩ := sumUp_keeps h1
      have hc1 : f1.comp = .no := d.trans hc
      have hf1 : Truthful k f1 := by
        rw [truthful_plain k _ hc1, a, b, c]
        exact (truthful_plain k _ hc).1 hf
      obtain ⟨x, y, p, hp, z⟩ := ih f1 g hl hg' hf1 hc1 h2
      refine ⟨x, y, p, ?_, z⟩
      show ((Stage.sum.work k f).bind (run k (plain l))) = _
      rw [h1]
      exact hp
    | gapFill c =>
      obtain ⟨hf1, hc1, _⟩ := gaps_truthful k c f f1 (hg _ List.mem_cons_self) hc h1
      obtain ⟨x, y, p, hp, z⟩ := ih f1 g hl hg' hf1 hc1 h2
      refine ⟨x, y, p, ?_, z⟩
      show (((Stage.gapFill c).work k f).bind (run k (plain l))) = _
      rw [h1]
      exact hp
    | blosc level shuffle left =>
      have hl : ∀ s ∈ l, Keeps s := hl
      obtain ⟨w, hw, hlen⟩ := (truthful_plain k f hc).1 hf
      have h1 : compress k level shuffle left f = .pushed f1 := h1
      unfold compress at h1
      rw [hw] at h1
      dsimp only at h1
      split at h1
      · cases h1
      · next hm =>
        have hm : f.image.length ≤ maxBuffer := Nat.le_of_not_lt hm
        cases h1
        obtain ⟨a, b, c, d⟩ := keeps_run k l hl _ g h2
        obtain ⟨p, hp⟩ := keeps_push k l hl f _ g h2 hm
        obtain ⟨a', b', c', d'⟩ := keeps_run k l hl f p hp
        have hme : meaning k g = some f.image := by
          unfold meaning
          rw [d]
          dsimp only
          rw [a]
          exact hk _ _ _ _ hm
        refine ⟨⟨f.image, w, hme, by rw [c, ← sizeOf_bytes]; exact hw, by rw [b]; exact hlen⟩, Or.inr d, p, ?_, by rw [hme, a'], b.trans b'.symm,
          c.trans c'.symm⟩
        have : plain (.blosc level shuffle left :: l) = plain l := rfl
        rw [this, plain_keeps l hl]
        exact hp

/-- Compressed again and again: the frame says that it is compressed once, but has to be decompressed as often as it was
compressed. -/
theorem C131_times (k : Codec) (hk : Lossless k) (l : List Stage) (hl : ∀ s ∈ l, Keeps s ∨ isBlosc s = true) :
    ∀ (f g : Fr), run k l f = .pushed g →
      decompress k (l.countP isBlosc) g.image = some f.image ∧ g.comp = (if l.countP isBlosc = 0 then f.comp else .blosc) := by
  suffices ∀ (n : Nat) (f g : Fr) (x : List Nat), decompress k n f.image = some x → run k l f = .pushed g →
      decompress k (l.countP isBlosc + n) g.image = some x ∧ g.comp = (if l.countP isBlosc = 0 then f.comp else .blosc) by
    intro f g h
    exact this 0 f g f.image rfl h
  induction l with
  | nil => intro n f g x hx h; cases h; simp only [List.countP_nil, Nat.zero_add]; exact ⟨hx, rfl⟩
  | cons s l ih =>
    intro n f g x hx h
    obtain ⟨f1, h1, h2⟩ := bind_pushed h
    have ih := ih (fun x hx => hl x (List.mem_cons_of_mem _ hx))
    cases s with
    | pass keep =>
      cases keep with
      | true =>
        cases h1
        rw [List.countP_cons_of_neg (by decide)]
        exact ih n f g x hx h2
      | false => cases h1
    | sum =>
      obtain ⟨a, _, _, d, _⟩ := sumUp_keeps h1
      rw [List.countP_cons_of_neg (by decide), ← d]
      exact ih n f1 g x (by rw [a]; exact hx) h2
    | gapFill c =>
      rcases hl _ List.mem_cons_self with h | h
      · exact absurd h id
      · cases h
    | blosc level shuffle left =>
      have h1 : compress k level shuffle left f = .pushed f1 := h1
      unfold compress at h1
      split at h1
      · cases h1
      · next w hw =>
        dsimp only at h1
        split at h1
        · cases h1
        · next hm =>
          have hm : f.image.length ≤ maxBuffer := Nat.le_of_not_lt hm
          cases h1
          obtain ⟨a, b⟩ := ih (n + 1) _ g x (by simp only [decompress, hk _ _ _ _ hm, Option.bind_some]; exact hx) h2
          rw [List.countP_cons_of_pos rfl]
          refine ⟨by rw [Nat.add_assoc, Nat.add_comm 1]; exact a, ?_⟩
          rw [b, if_neg (Nat.succ_ne_zero _)]
          split <;> rfl

end

theorem dummy_fr (k : Codec) (dims : List Nat) (n : Nat) (d : Nat → Nat) (r : List Nat) (h : n = pixels dims * 2) :
    Truthful k { dtype := .raw16, dims := dims, comp := .no, image := bytesOf n d, behind := r } :=
  ⟨bytesOf n d, 2, rfl, rfl, by rw [bytesOf_length]; exact h⟩

theorem dims_size (w h : Int) (hw : 0 ≤ w) (hh : 0 ≤ h) : (w * h).toNat * 2 = pixels ([h, w].map toDim) * 2 := by
  have b1 : toDim h = h.toNat := if_pos hh
  have b2 : toDim w = w.toNat := if_pos hw
  simp only [List.map_cons, List.map_nil, pixels, b1, b2, Nat.mul_one]
  rw [Int.toNat_mul hw hh, Nat.mul_comm h.toNat]

/-- The frames of the dummy process plugin are truthful, if they lie inside their memory. -/
theorem C131_dummy (k : Codec) (c : DummyProcess.Cfg) (h : DummyProcess.Header) (p : DummyProcess.Buf) (lost : Nat) (f : Fr)
    (hw : 0 ≤ c.width) (hh : 0 ≤ c.height) (hf : ofDummy (DummyProcess.processFrame c h p lost).1 = some f) :
    Truthful k f ∧ f.comp = .no := by
  have hd := dims_size c.width c.height hw hh
  unfold DummyProcess.processFrame at hf
  generalize DummyProcess.processLost h p lost = r at hf
  cases r with
  | none => cases hf
  | some q =>
    simp only [DummyProcess.outputOf, DummyProcess.output] at hf
    split at hf
    · cases hf
    · next n hn =>
      have hn : n = c.width * c.height ∧ c.width * c.height < 2 ^ 31 := by
        unfold DummyProcess.product at hn
        split at hn
        · next hb => cases hn; exact ⟨rfl, hb.2⟩
        · cases hn
      obtain ⟨hn, hlt⟩ := hn
      split at hf
      · cases hf
      · rw [hn] at hf
        unfold DummyProcess.outputSized at hf
        split at hf
        · split at hf
          · simp only [ofDummy, Option.some.injEq] at hf
            subst hf
            exact ⟨dummy_fr k _ _ _ _ hd, rfl⟩
          · cases hf
        · simp only [ofDummy] at hf
          split at hf
          · next h0 =>
            have ht : (DummyProcess.toInt ((c.width * c.height).toNat * 2)).toNat = (c.width * c.height).toNat * 2 := by
              have h0 := h0.1
              unfold DummyProcess.toInt at h0 ⊢
              split at h0
              · next hl => rw [if_pos hl]; rfl
              · omega
            rw [ht] at hf
            simp only [Option.some.injEq] at hf
            subst hf
            exact ⟨dummy_fr k _ _ _ _ hd, rfl⟩
          · cases hf

/-- Non-vacuity: two chips side by side, a gap between them, the sum, compression, and a look at the result. -/
def exWay : List Stage := [.sum, .gapFill ⟨[1, 2], [1, 1], [0, 1, 0], [0, 0]⟩, .blosc 1 2 (fun _ => 9), .pass true]
def exIn : Fr := { dtype := .raw16, dims := [1, 2], comp := .no, image := [1, 2, 3, 4] }
example : BloscLast exWay ∧ (∀ s ∈ exWay, Gaps s) ∧ Truthful exCodec exIn := by
  refine ⟨?_, ?_, ⟨_, _, rfl, rfl, rfl⟩⟩
  · intro s hs; simp at hs; subst hs; trivial
  · intro s hs
    simp only [exWay, List.mem_cons, List.not_mem_nil, or_false] at hs
    rcases hs with rfl | rfl | rfl | rfl
    · trivial
    · exact ⟨by decide, by decide⟩
    · trivial
    · trivial
example : run exCodec exWay exIn =
    .pushed ⟨.raw16, [1, 3], .blosc, [0, 1, 2, 0, 0, 3, 4], List.replicate 15 9, some 1540⟩ := by decide

/-! ## The file -/

/-- C132, full statement: a truthful frame goes any way to a file writer whose dataset has its type, dimensions and
compression (`C07`), with one frame to a chunk. If it is written, its reader gets the image of the way without compression,
whatever is written to other slots. -/
def C132_statement : Prop :=
  ∀ (k : Codec), Lossless k → ∀ (l : List Stage) (f g : Fr), Truthful k f → f.comp = .no → run k l f = .pushed g →
    ∀ (edge unlimited : Bool) (d : Layout.Def) (ds : Layout.Ds Nat), d.chunks = 1 :: d.dims →
      Layout.create unlimited d = some ds → g.dims = d.dims → bytes g.dtype = some d.size →
      ∀ before slot later, (∀ x ∈ later, x.1 ≠ slot) → (Layout.write edge (Layout.run edge 1 ds before) 1 slot g.image).2 = true →
        ∃ p, run k (plain l) f = .pushed p ∧
          Layout.ReadsBack 0 d.dims d.size 1 slot p.image
            (view k (decide (g.comp = .blosc)) (Layout.after edge 1 ds before slot g.image later))

/-- C132 is false of the code: a frame compressed twice is taken for one compressed once, and does not read back. -/
theorem C132_violated : ¬ C132_statement := by
  intro h
  obtain ⟨p, hp, hr⟩ := h exCodec exCodec_lossless [.blosc 1 2 (fun _ => 0), .blosc 1 2 (fun _ => 0)] exFr
    { exFr with comp := .blosc, image := [0, 0, 7], behind := List.replicate 15 0 } (exFr_truthful _) rfl (by decide)
    false false ⟨[1, 1], [1, 1, 1], 1, 1⟩ ⟨false, [1, 1, 1], [1, 1, 1], 1, []⟩ rfl rfl rfl rfl [] 0 [] (by simp) rfl
  cases hp
  have := hr 0 [0, 0] 1 (by decide) (by rw [← Layout.inside_iff]; rfl) rfl (by decide)
  revert this
  decide

theorem pixels_vol (l : List Nat) : pixels l = Layout.vol l := by
  induction l with
  | nil => rfl
  | cons d l ih => simp only [pixels, Layout.vol, ih]

theorem view_lookup (k : Codec) (b : Bool) (d : Layout.Ds Nat) (x : List Nat) :
    (view k b d).stored.lookup x = (d.stored.lookup x).map (seen k b) := by
  unfold view
  dsimp only
  induction d.stored with
  | nil => rfl
  | cons c l ih =>
    obtain ⟨a, i⟩ := c
    simp only [List.map_cons, List.lookup_cons]
    cases x == a with
    | true => rfl
    | false => exact ih

/-- What holds: if nothing is done to the image after its compression, and gaps are not negative, the image reads back. -/
theorem C132_partial (k : Codec) (hk : Lossless k) (l : List Stage) (f g : Fr) (hl : BloscLast l) (hg : ∀ s ∈ l, Gaps s)
    (hf : Truthful k f) (hc : f.comp = .no) (h : run k l f = .pushed g) (edge unlimited : Bool) (d : Layout.Def)
    (ds : Layout.Ds Nat) (hd : d.chunks = 1 :: d.dims) (hcr : Layout.create unlimited d = some ds) (he : g.dims = d.dims)
    (ht : bytes g.dtype = some d.size) (before : List (Nat × List Nat)) (slot : Nat) (later : List (Nat × List Nat))
    (hn : ∀ x ∈ later, x.1 ≠ slot) (hw : (Layout.write edge (Layout.run edge 1 ds before) 1 slot g.image).2 = true) :
    ∃ p, run k (plain l) f = .pushed p ∧
      Layout.ReadsBack 0 d.dims d.size 1 slot p.image
        (view k (decide (g.comp = .blosc)) (Layout.after edge 1 ds before slot g.image later)) := by
  obtain ⟨⟨img, w, m1, m2, m3⟩, hcomp, p, hp, hm, hpd, hpt⟩ := C131_partial k hk l f g hl hg hf hc h
  refine ⟨p, hp, ?_⟩
  rw [hm] at m1
  cases m1
  have hsz : w = d.size := by rw [m2] at ht; injection ht
  obtain ⟨ho, _, _, _, _, ha⟩ := Layout.create_of hd hcr
  have hch : (if unlimited = true then 1 else Layout.clamp 1 d.frames) = 1 := by
    split
    · rfl
    · next hu =>
      rw [if_neg hu] at ha
      unfold Layout.accepts at ha
      simp only [List.all_cons, Bool.and_eq_true, decide_eq_true_eq] at ha
      have := ha.1.1.2.1.1
      rw [if_neg hu] at this
      unfold Layout.clamp at this ⊢
      split at this
      · next q => rw [if_pos q]; omega
      · next q => rw [if_neg q]
  rw [hch] at ho
  obtain ⟨h1, h2⟩ := Layout.after_lookup edge 1 (by decide) ds ho before later slot g.image hn hw
  have h3 : Layout.Of d.dims (1 :: d.dims) d.size unlimited
      (view k (decide (g.comp = .blosc)) (Layout.after edge 1 ds before slot g.image later)) :=
    ⟨h1.dims, h1.chunk, h1.size, h1.unlimited⟩
  refine Layout.reads_back 0 1 (by decide) _ h3 slot p.image ?_ ?_
  · rw [m3, he, pixels_vol, hsz, Nat.one_mul]
  · rw [view_lookup, h2]
    unfold meaning at hm
    unfold seen
    rcases hcomp with hcomp | hcomp
    · rw [hcomp] at hm
      injection hm with hm
      rw [hcomp, hm]
      rfl
    · rw [hcomp] at hm
      dsimp only at hm
      rw [hcomp, Option.map_some, if_pos (by decide), hm]
      rfl

/-- Non-vacuity: the way above, into the second of two slots. -/
example : Layout.create false ⟨[1, 3], [1, 1, 3], 2, 2⟩ = some (⟨false, [2, 1, 3], [1, 1, 3], 2, []⟩ : Layout.Ds Nat) := rfl
example : (Layout.write false ⟨false, [2, 1, 3], [1, 1, 3], 2, []⟩ 1 1 [0, 1, 2, 0, 0, 3, 4]).2 = true ∧
    Layout.element 0 (view exCodec true (Layout.after false 1 ⟨false, [2, 1, 3], [1, 1, 3], 2, []⟩ [] 1
      [0, 1, 2, 0, 0, 3, 4] [])) [1, 0, 2] = some [3, 4] := by decide

end Verif.Pipeline
