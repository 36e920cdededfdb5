import Verif.Props.EndToEnd
import Verif.Props.GapFillInt
/-! Property C135 with gap filling on the way: the pixels that arrive are in the file, moved by the gaps, and the gaps are zero. -/
namespace Verif.EndToEnd
open Verif.Decoder (Ready Packet LogGood)
open Verif.Decoder.Spec (Ev World Every Regular Distinct Whole packetsOf)
open Verif.Pipeline.Spec (Keeps BloscLast isBlosc Lossless Bounded)
open Verif.GapFill.Spec (srcHeight srcWidth height width destY destX byteAt Complete cfg)
open Spec

namespace Spec

/-- Byte `k` of pixel `(y, x)` of the frame at `slot` is `v` for a reader of the file. -/
def PixelByte (s : Setup) (d : Layout.Ds Nat) (slot y x k v : Nat) : Prop :=
  ∃ l, Layout.element 0 (Pipeline.view s.codec (decide (s.comp = .blosc)) d) [slot, y, x] = some l ∧ l[k]? = some v

/-- The parts fit together, with a gap fill plugin for the layout `L` on the way: before it are plugins that keep the image, after
it plugins that deliver it, compressed at most once. The images of the detector are those without gaps, those of the dataset
those with gaps. -/
structure FittingGaps (s : Setup) (L : GapFill.Spec.Layout) (a b : List Pipeline.Stage) : Prop where
  accepted : s.rx.accepted = true
  width : s.image.width = srcWidth L
  height : s.image.height = srcHeight L
  fits : srcWidth L * srcHeight L * 2 ≤ s.rx.packets * s.rx.size
  wpos : 0 < srcWidth L
  hpos : 0 < srcHeight L
  layout : Complete L
  two : L.sz = 2
  ints : GapFill.Small L
  small : GapFill.Spec.width L * GapFill.Spec.height L * 2 ≤ 2 ^ 31 - 17
  dims : s.dims = [GapFill.Spec.height L, GapFill.Spec.width L]
  dtype : s.dtype = .raw16
  split : s.way = a ++ .gapFill (cfg L) :: b
  before : ∀ t ∈ a, Keeps t ∧ Delivers t
  way : ∀ t ∈ b, Delivers t
  last : BloscLast b
  comp : s.comp = if b.any isBlosc then .blosc else .no
  lossless : Lossless s.codec
  bounded : Bounded s.codec
  procs : 0 < s.geom.procs
  fpb : 0 < s.geom.fpb
  bpf : s.geom.bpf = 0
  adj : -2 ^ 62 ≤ s.adj ∧ s.adj ≤ 2 ^ 62

/-- What is in the file of a frame of which the packets `l` arrived: every byte of every pixel of the detector, or zero if its
packet did not arrive, at the place that the layout gives the pixel, and zero in the gaps. -/
def Filled (s : Setup) (L : GapFill.Spec.Layout) (d : Layout.Ds Nat) (slot : Nat) (l : List (Nat × Nat)) : Prop :=
  (∀ y x k, y < srcHeight L → x < srcWidth L → k < 2 →
    ∃ v, PixelByte s d slot (destY L y) (destX L x) k v ∧ ByteOf s.rx.size s.bytes l ((y * srcWidth L + x) * 2 + k) v) ∧
  ∀ Y X k, Y < height L → X < width L → k < 2 → (¬ ∃ y x, y < srcHeight L ∧ x < srcWidth L ∧ Y = destY L y ∧ X = destX L x) →
    PixelByte s d slot Y X k 0

end Spec

/-! ## Positions -/

theorem at_pixel (w y x k : Nat) (hx : x < w) (hk : k < 2) :
    ((y * w + x) * 2 + k) / 2 / w = y ∧ ((y * w + x) * 2 + k) / 2 % w = x ∧ ((y * w + x) * 2 + k) % 2 = k := by
  have e : ((y * w + x) * 2 + k) / 2 = y * w + x := by omega
  refine ⟨?_, ?_, by omega⟩
  · rw [e, Nat.mul_comm, Nat.mul_add_div (by omega), Nat.div_eq_of_lt hx, Nat.add_zero]
  · rw [e, Nat.mul_comm, Nat.mul_add_mod, Nat.mod_eq_of_lt hx]

theorem at_below (w h y x k : Nat) (hy : y < h) (hx : x < w) (hk : k < 2) : (y * w + x) * 2 + k < w * h * 2 := by
  have h1 : (y + 1) * w ≤ h * w := Nat.mul_le_mul_right _ hy
  rw [Nat.add_mul, Nat.one_mul] at h1
  rw [Nat.mul_comm w h]
  omega

theorem pixel_of (s : Setup) (w : Nat) (d : Layout.Ds Nat) (slot y x k v : Nat) (hx : x < w) (hk : k < 2)
    (h : FileByte s w d slot ((y * w + x) * 2 + k) v) : PixelByte s d slot y x k v := by
  obtain ⟨l, h1, h2⟩ := h
  obtain ⟨e1, e2, e3⟩ := at_pixel w y x k hx hk
  rw [e1, e2] at h1
  rw [e3] at h2
  exact ⟨l, h1, h2⟩

/-! ## The way -/

theorem run_way (k : Pipeline.Codec) (a b : List Pipeline.Stage) :
    ∀ f, Pipeline.run k (a ++ b) f = (Pipeline.run k a f).bind (Pipeline.run k b) := by
  induction a with
  | nil => intro f; rfl
  | cons t a ih =>
    intro f
    show (t.work k f).bind (Pipeline.run k (a ++ b)) = ((t.work k f).bind (Pipeline.run k a)).bind _
    cases t.work k f with
    | pushed g => exact ih g
    | dropped => rfl
    | threw => rfl
    | ub => rfl

/-- An image on its way through the gap fill plugin. -/
theorem gaps_made (L : GapFill.Spec.Layout) (hc : Complete L) (hs : GapFill.Small L) (h2 : L.sz = 2) (f : Pipeline.Fr)
    (hd : f.dims = [srcHeight L, srcWidth L]) (ht : f.dtype = .raw16) (hl : f.image.length = srcWidth L * srcHeight L * 2) :
    ∃ g, Pipeline.insertGaps (cfg L) f = .pushed g ∧ g.dims = [height L, width L] ∧ g.dtype = .raw16 ∧ g.comp = f.comp ∧
      g.image.length = width L * height L * 2 ∧
      (∀ y x k, y < srcHeight L → x < srcWidth L → k < 2 →
        g.image[(destY L y * width L + destX L x) * 2 + k]? = f.image[(y * srcWidth L + x) * 2 + k]?) ∧
      ∀ Y X k, Y < height L → X < width L → k < 2 → (¬ ∃ y x, y < srcHeight L ∧ x < srcWidth L ∧ Y = destY L y ∧ X = destX L x) →
        g.image[(Y * width L + X) * 2 + k]? = some 0 := by
  have hsrc : srcHeight L * srcWidth L * L.sz ≤ (Pipeline.bufOf (f.image ++ f.behind)).size := by
    show _ ≤ (f.image ++ f.behind).length
    rw [List.length_append, hl, h2, Nat.mul_comm (srcHeight L)]
    omega
  obtain ⟨out, e, e1, e2, e3⟩ := GapFill.C20_partial L _ hc hs hsrc
  rw [h2] at e e1 e2 e3
  have hw : Pipeline.insertGaps (cfg L) f = .pushed { f with dims := [(height L : Int), (width L : Int)].map Pipeline.toDim, image := Pipeline.bytesOf out.size out.data, behind := [] } := by
    unfold Pipeline.insertGaps
    rw [ht]
    show (match GapFill.processFrameI (cfg L) f.dims 2 (Pipeline.bufOf (f.image ++ f.behind)) with
      | .dropped => _
      | .ub => _
      | .pushed dims image => _) = _
    rw [hd, e]
  have hsz : out.size = width L * height L * 2 := by rw [e1, Nat.mul_comm (height L)]
  refine ⟨_, hw, ?_, ht, rfl, ?_, ?_, ?_⟩
  · have : ∀ n : Nat, Pipeline.toDim n = n := fun n => by unfold Pipeline.toDim; rw [if_pos (by omega)]; omega
    simp [this]
  · show (Pipeline.bytesOf out.size out.data).length = _
    rw [Pipeline.bytesOf_length, hsz]
  · intro y x k hy hx hk
    have hq := at_below _ _ _ _ k (GapFill.destY_lt L y hy) (GapFill.destX_lt L x hx) hk
    have hq' := at_below _ _ _ _ k hy hx hk
    show (Pipeline.bytesOf out.size out.data)[_]? = _
    rw [bytesOf_get _ _ _ (by rw [hsz]; exact hq)]
    have := e2 y x k hy hx hk
    unfold byteAt at this
    rw [this]
    show some ((f.image ++ f.behind).getD _ 0) = _
    rw [List.getD_eq_getElem?_getD, List.getElem?_append_left (by rw [hl]; exact hq'), List.getElem?_eq_getElem (by rw [hl]; exact hq')]
    rfl
  · intro Y X k hY hX hk hno
    show (Pipeline.bytesOf out.size out.data)[_]? = _
    rw [bytesOf_get _ _ _ (by rw [hsz]; exact at_below _ _ _ _ k hY hX hk)]
    have := e3 Y X k hY hX hk hno
    unfold byteAt at this
    rw [this]

/-- The same receiver and image, without plugins and for a dataset of images without gaps. -/
def bare (s : Setup) (L : GapFill.Spec.Layout) : Setup := { s with way := [], dims := [srcHeight L, srcWidth L], comp := .no }

theorem small_src (L : GapFill.Spec.Layout) : srcWidth L * srcHeight L ≤ width L * height L :=
  Nat.mul_le_mul (Nat.le_add_right _ _) (Nat.le_add_right _ _)

theorem bare_fitting (s : Setup) (L : GapFill.Spec.Layout) (a b : List Pipeline.Stage) (hf : FittingGaps s L a b) :
    Fitting (bare s L) (srcWidth L) (srcHeight L) where
  accepted := hf.accepted
  width := hf.width
  height := hf.height
  fits := hf.fits
  small := by have := hf.small; have := small_src L; omega
  wpos := hf.wpos
  hpos := hf.hpos
  dims := rfl
  dtype := hf.dtype
  way := fun t ht => by cases ht
  last := trivial
  comp := rfl
  lossless := hf.lossless
  bounded := hf.bounded
  procs := hf.procs
  fpb := hf.fpb
  bpf := hf.bpf
  adj := hf.adj

/-- The image that comes to the file writer, of a frame of which the packets `l` arrived. -/
def Image (s : Setup) (L : GapFill.Spec.Layout) (l : List (Nat × Nat)) (image : List Nat) : Prop :=
  (∀ y x k, y < srcHeight L → x < srcWidth L → k < 2 → ∃ v,
    image[(destY L y * width L + destX L x) * 2 + k]? = some v ∧ ByteOf s.rx.size s.bytes l ((y * srcWidth L + x) * 2 + k) v) ∧
  ∀ Y X k, Y < height L → X < width L → k < 2 → (¬ ∃ y x, y < srcHeight L ∧ x < srcWidth L ∧ Y = destY L y ∧ X = destX L x) →
    image[(Y * width L + X) * 2 + k]? = some 0

/-- Every buffer handed on comes to the file writer, with its image. -/
theorem sent_gaps (s : Setup) (L : GapFill.Spec.Layout) (a b : List Pipeline.Stage) (hf : FittingGaps s L a b)
    (x : Ready × List (Nat × Nat)) (hx : LogGood s.rx x ∧ (x.2.map (·.1)).Nodup) :
    ∃ (image : List Nat) (g : Pipeline.Fr), sent s x.1 = some (.pushed g) ∧ valid s g = true ∧
      image.length = width L * height L * 2 ∧ Pipeline.seen s.codec (decide (s.comp = .blosc)) g.image = image ∧
      Image s L x.2 image := by
  obtain ⟨f, h1, h2, h3, h4, h5, h6⟩ := made_of (bare s L) _ _ (bare_fitting s L a b hf) x hx.1 hx.2
  have h1 : made s x.1 = some f := h1
  have hlen : f.image.length < 2 ^ 31 := by rw [h5]; have := hf.small; have := small_src L; omega
  obtain ⟨f1, b1⟩ := keeps_delivers s.codec a (fun t ht => (hf.before t ht).1) (fun t ht => (hf.before t ht).2) f hlen
  obtain ⟨b2, b3, b4, b5⟩ := Pipeline.keeps_run s.codec a (fun t ht => (hf.before t ht).1) _ _ b1
  obtain ⟨f2, c1, c2, c3, c4, c5, c6, c7⟩ := gaps_made L hf.layout hf.ints hf.two f1 (by rw [b3, h3]) (by rw [b4, h2]) (by rw [b2, h5])
  obtain ⟨g, a1, a2, a3, a4, a5⟩ := way_delivers s.codec hf.lossless hf.bounded b hf.way hf.last f2 c3 (by rw [c4, b5, h4])
    (by rw [c5]; exact hf.small)
  rw [← hf.comp] at a4
  refine ⟨f2.image, g, ?_, ?_, c5, by rw [← a4]; exact a5, ?_, c7⟩
  · unfold sent
    rw [h1, Option.map_some, hf.split, run_way, b1]
    show some ((Pipeline.insertGaps (cfg L) f1).bind (Pipeline.run s.codec b)) = _
    rw [c1]
    exact congrArg some a1
  · unfold valid
    have hc : s.comp ≠ .unknown := by rw [hf.comp]; split <;> decide
    rw [a4, a3, c3, a2, c2, hf.dims, hf.dtype]
    simp [hc]
  · intro y xx k hy hxx hk
    obtain ⟨v, e1, e2⟩ := h6 _ (at_below _ _ _ _ k hy hxx hk)
    exact ⟨v, by rw [c6 y xx k hy hxx hk, b2]; exact e1, e2⟩

/-- With gap filling on the way: of the frame that was handed on last with its number, every byte of every pixel of the detector
is in the file as it was sent, or zero if its packet did not arrive, at the place the layout gives the pixel; and the gaps are
zero. -/
theorem C135_gaps (s : Setup) (L : GapFill.Spec.Layout) (a b : List Pipeline.Stage) (hf : FittingGaps s L a b) (unlimited : Bool)
    (frames : Nat) (d : Layout.Ds Nat)
    (hcr : Layout.create unlimited ⟨[height L, width L], [1, height L, width L], frames, 2⟩ = some d) (evs : List Ev) (W : World)
    (hp : Every s.rx (Regular s.rx) (Decoder.Spec.init s.rx) evs)
    (hr : Decoder.Spec.run s.rx (Decoder.Spec.init s.rx) evs = some W) (h32 : ∀ x ∈ W.log, x.1.frame < 2 ^ 32) :
    ∃ d', deliverAll s d (W.log.map (·.1)) = some d' ∧
      ∀ l1 x l2, W.log = l1 ++ x :: l2 → (∀ y ∈ l2, y.1.frame ≠ x.1.frame) → Mine s unlimited frames x.1.frame →
        x.1.frame < 2 ^ 31 → Filled s L d' (place s x.1.frame) x.2 := by
  have hlog : ∀ x ∈ W.log, LogGood s.rx x ∧ (x.2.map (·.1)).Nodup := fun x hx =>
    ⟨(Decoder.run_inv s.rx hf.accepted evs W hp hr).log x hx, (apart_run s.rx evs W hp hr).2 x hx⟩
  have hw : 0 < width L := Nat.lt_of_lt_of_le hf.wpos (Nat.le_add_right _ _)
  have hh : 0 < height L := Nat.lt_of_lt_of_le hf.hpos (Nat.le_add_right _ _)
  obtain ⟨d', h1, h2⟩ := file_any s (width L) (height L) hw hh hf.procs hf.fpb hf.bpf hf.adj unlimited frames d hcr W.log
    (fun x image => Image s L x.2 image) (fun y hy => (hlog y hy).1.1.frame) h32 (fun x hx => sent_gaps s L a b hf x (hlog x hx))
  refine ⟨d', h1, fun l1 x l2 hsplit hlater hmine h31 => ?_⟩
  obtain ⟨image, ⟨h3, h4⟩, h5⟩ := h2 l1 x l2 hsplit hlater hmine h31
  constructor
  · intro y xx k hy hx hk
    obtain ⟨v, e1, e2⟩ := h3 y xx k hy hx hk
    have hX := GapFill.destX_lt L xx hx
    exact ⟨v, pixel_of s (width L) d' _ _ _ k v hX hk (h5 _ v (at_below _ _ _ _ k (GapFill.destY_lt L y hy) hX hk) e1), e2⟩
  · intro Y X k hY hX hk hno
    exact pixel_of s (width L) d' _ _ _ k 0 hX hk (h5 _ 0 (at_below _ _ _ _ k hY hX hk) (h4 Y X k hY hX hk hno))

/-! ## An instance -/

/-- Two chips of one pixel, side by side, with a gap of one pixel between them and a row below. -/
def gapLayout : GapFill.Spec.Layout := { gy := 1, gx := 2, cy := 1, cx := 1, gapsX := [0, 1, 0], gapsY := [0, 1], sz := 2 }

/-- The parts of `exSetup`, with gap filling between the sum and the compressor. -/
def gapSetup : Setup := { exSetup with way := [.sum, .gapFill (cfg gapLayout), .blosc 1 2 (fun _ => 0), .pass true], dims := [2, 3] }

theorem gapFitting : FittingGaps gapSetup gapLayout [.sum] [.blosc 1 2 (fun _ => 0), .pass true] where
  accepted := by decide
  width := rfl
  height := rfl
  fits := by decide
  wpos := by decide
  hpos := by decide
  layout := ⟨rfl, rfl⟩
  two := rfl
  ints := ⟨by decide, by decide, by decide, by decide, by decide, by decide, by decide⟩
  small := by decide
  dims := rfl
  dtype := rfl
  split := rfl
  before := by
    intro t ht
    rw [List.mem_singleton] at ht
    subst ht
    exact ⟨trivial, trivial⟩
  way := by
    intro t ht
    simp only [List.mem_cons, List.not_mem_nil, or_false] at ht
    rcases ht with rfl | rfl
    · trivial
    · rfl
  last := by
    show ∀ t ∈ [Pipeline.Stage.pass true], Keeps t
    intro t ht
    rw [List.mem_singleton] at ht
    subst ht
    trivial
  comp := rfl
  lossless := Pipeline.exCodec_lossless
  bounded := exFitting.bounded
  procs := by decide
  fpb := by decide
  bpf := rfl
  adj := by decide

/-- The pixels of the frame at `slot`, after the packets of `mixed`. -/
def gapPixels (slot : Nat) : Option (List (Option (List Nat))) :=
  (Decoder.Spec.run gapSetup.rx (Decoder.Spec.init gapSetup.rx) mixed).bind (fun W =>
    (deliverAll gapSetup ⟨true, [1, 2, 3], [1, 2, 3], 2, []⟩ (W.log.map (·.1))).map (fun d =>
      [[slot, 0, 0], [slot, 0, 1], [slot, 0, 2], [slot, 1, 0], [slot, 1, 1], [slot, 1, 2]].map
        (Layout.element 0 (Pipeline.view gapSetup.codec true d))))

example : gapPixels 1 = some [some [40, 41], some [0, 0], some [30, 31], some [0, 0], some [0, 0], some [0, 0]] := by
  decide +kernel
example : Layout.create true ⟨[height gapLayout, width gapLayout], [1, height gapLayout, width gapLayout], 1, 2⟩ =
    some (⟨true, [1, 2, 3], [1, 2, 3], 2, []⟩ : Layout.Ds Nat) := rfl
example : Every gapSetup.rx (Regular gapSetup.rx) (Decoder.Spec.init gapSetup.rx) mixed :=
  Decoder.every_of_everyB _ _ _ (Decoder.regular_of_bool _) _ _ (by decide +kernel)

end Verif.EndToEnd
