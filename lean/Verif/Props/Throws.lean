import Verif.Props.Pipeline
import Verif.Props.GapFillInt
/-!
C134: no frame makes a plugin throw or leave its memory. An exception in the thread of a plugin ends the process
(no handler in FrameProcessorPlugin.cpp callback nor in IFrameCallback.cpp workerTask 114-128).
-/
namespace Verif.Pipeline
open Verif.Sum (DType)

namespace Spec

/-- Neither an exception nor an access outside a block of memory. -/
def Safe (r : Res) : Prop := r ≠ .threw ∧ r ≠ .ub

/-- Compressed data are at most 16 bytes longer than the image. -/
def Bounded (k : Codec) : Prop := ∀ level shuffle w x, (k.enc level shuffle w x).length ≤ x.length + 16

/-- The gap fill plugin is configured with a grid and a chip of two numbers and with gaps that are not negative, all lengths
being numbers of type `int`; if there are as many gaps as needed, the enlarged image of the largest pixels is not larger than
what the compressor takes. -/
def Fits : Stage → Prop
  | .gapFill c => ∃ l : GapFill.Spec.Layout, c = GapFill.Spec.cfg l ∧ l.gx + 1 < 2 ^ 31 ∧ l.gy + 1 < 2 ^ 31 ∧ l.cx * 8 < 2 ^ 31 ∧
      GapFill.Spec.height l < 2 ^ 31 ∧ GapFill.Spec.width l < 2 ^ 31 ∧
      (GapFill.Spec.Complete l → GapFill.Spec.height l * GapFill.Spec.width l * 8 ≤ 2 ^ 31 - 17)
  | _ => True

end Spec
open Spec

/-- C134, full statement: no truthful frame whose image is not larger than what the compressor takes makes a plugin of any way
throw or access memory outside its blocks. -/
def C134_statement : Prop :=
  ∀ (k : Codec), Lossless k → Bounded k → ∀ (l : List Stage) (f : Fr), Truthful k f → f.image.length ≤ 2 ^ 31 - 17 →
    Safe (run k l f)

/-! ## Where it fails -/

theorem exCodec_bounded : Bounded exCodec := by
  intro a b w x
  show (0 :: x).length ≤ _
  simp only [List.length_cons]
  omega

/-- C134 is false of the code: the gap fill plugin before it is configured reads its empty configuration. -/
theorem C134_violated : ¬ C134_statement := by
  intro h
  exact (h exCodec exCodec_lossless exCodec_bounded [.gapFill {}] exFr (exFr_truthful _) (by decide)).2 (by decide)

/-- It does so for every frame. -/
theorem C134_unconfigured (k : Codec) (l : List Stage) (f : Fr) (w : Nat) (hw : bytes f.dtype = some w) :
    run k (.gapFill {} :: l) f = .ub := by
  simp only [run, Stage.work, insertGaps, sizeOf_bytes, hw, show GapFill.processFrameI {} f.dims w (bufOf (f.image ++ f.behind)) = .ub from rfl, Res.bind]

/-- A frame with one dimension, as any plugin may make it, sends even a configured gap fill plugin outside its memory. -/
theorem C134_violated_dims : Truthful exCodec { exFr with dims := [1] } ∧
    run exCodec [.gapFill ⟨[1, 1], [1, 1], [0, 0], [0, 0]⟩] { exFr with dims := [1] } = .ub :=
  ⟨⟨[7], 1, rfl, rfl, rfl⟩, by decide⟩

section
attribute [local irreducible] maxBuffer

/-- An image of the largest size that is compressed can be too large to be compressed again. -/
theorem C134_violated_twice (k : Codec) (a b c d : Nat) (x y : Nat → Nat) (f : Fr) (w : Nat) (hw : bytes f.dtype = some w)
    (hm : f.image.length ≤ maxBuffer) (hl : maxBuffer < (k.enc a b w f.image).length) :
    run k [.blosc a b x, .blosc c d y] f = .threw := by
  have e : compress k a b x f = .pushed ⟨f.dtype, f.dims, .blosc, k.enc a b w f.image,
      bytesOf (f.image.length + overhead - (k.enc a b w f.image).length) x, f.sum⟩ := by
    unfold compress
    rw [sizeOf_bytes, hw]
    dsimp only
    rw [if_neg (Nat.not_lt.mpr hm)]
  have e2 : compress k c d y ⟨f.dtype, f.dims, .blosc, k.enc a b w f.image,
      bytesOf (f.image.length + overhead - (k.enc a b w f.image).length) x, f.sum⟩ = .threw := by
    unfold compress
    dsimp only
    rw [sizeOf_bytes, hw]
    dsimp only
    rw [if_pos hl]
  simp only [run, Stage.work, e, Res.bind, e2]

/-- The largest image, and the compressor that puts a byte in front. -/
theorem C134_twice_witness (f : Fr) (h1 : f.dtype = .raw8) (h2 : f.image.length = maxBuffer) :
    run exCodec [.blosc 1 2 (fun _ => 0), .blosc 1 2 (fun _ => 0)] f = .threw := by
  refine C134_violated_twice exCodec 1 2 1 2 _ _ f 1 (by rw [h1]; rfl) (by omega) ?_
  show _ < (0 :: f.image).length
  rw [List.length_cons, h2]
  omega

/-! ## What holds -/

theorem safe_pushed (f : Fr) : Safe (.pushed f) := ⟨nofun, nofun⟩
theorem safe_dropped : Safe .dropped := ⟨nofun, nofun⟩

theorem sumUp_int (f : Fr) (hs : f.image.length < 2 ^ 31) : ∃ g, sumUp f = .pushed g := by
  unfold sumUp Sum.processFrame Sum.attach
  cases f.dtype <;> dsimp only <;> first
    | exact ⟨_, rfl⟩
    | (rw [Sum.calculateSum_small _ _ hs]; exact ⟨_, rfl⟩)

/-- Plugins that keep the image. -/
theorem safe_keeps (k : Codec) (l : List Stage) (hl : ∀ s ∈ l, Keeps s) : ∀ f : Fr, f.image.length < 2 ^ 31 →
    Safe (run k l f) := by
  induction l with
  | nil => intro f _; exact safe_pushed f
  | cons s l ih =>
    intro f hf
    have hs := hl s List.mem_cons_self
    have ih := ih (fun x hx => hl x (List.mem_cons_of_mem _ hx))
    cases s with
    | pass keep =>
      cases keep with
      | true => exact ih f hf
      | false => exact safe_dropped
    | sum =>
      obtain ⟨g, hg⟩ := sumUp_int f hf
      obtain ⟨e, _⟩ := sumUp_keeps hg
      simp only [run, Stage.work, hg, Res.bind]
      exact ih g (by rw [e]; exact hf)
    | gapFill c => exact absurd hs id
    | blosc _ _ _ => exact absurd hs id

theorem bytes_le (t : DType) (w : Nat) (h : bytes t = some w) : w ≤ 8 := by
  cases t <;> cases h <;> decide

theorem processI_false (c : GapFill.Cfg) (d : List Nat) (n : Nat) (src : GapFill.Buf) (h : GapFill.configurationValidI c d = some false) :
    GapFill.processFrameI c d n src = .dropped := by unfold GapFill.processFrameI; rw [h]

theorem gapsFit_false (l : GapFill.Spec.Layout) (h1 : l.gx + 1 < 2 ^ 31) (h2 : l.gy + 1 < 2 ^ 31) (h : ¬ (l.gx + 1 = l.gapsX.length ∧ l.gy + 1 = l.gapsY.length)) :
    GapFill.gapsFit l.gx l.gy (GapFill.Spec.cfg l) = some false := by
  have e2 : (l.gx : Int) + 1 = ((l.gx + 1 : Nat) : Int) := by push_cast; rfl
  have e3 : (l.gy : Int) + 1 = ((l.gy + 1 : Nat) : Int) := by push_cast; rfl
  unfold GapFill.gapsFit
  rw [e2, e3, GapFill.i32_ok _ h1, Option.bind_some, GapFill.u64_ok _ (by omega), GapFill.i32_ok _ h2, Option.bind_some, GapFill.u64_ok _ (by omega)]
  simp only [GapFill.Spec.cfg, List.length_map]
  by_cases c2 : ((l.gx + 1 : Nat) : Int) ≠ (l.gapsX.length : Int)
  · rw [if_pos c2]
  · rw [if_neg c2]
    have : ¬ ((l.gy + 1 : Nat) : Int) = (l.gapsY.length : Int) := fun c3 => h ⟨by omega, by omega⟩
    rw [decide_eq_false this]

/-- A configuration that does not fit to the frame. -/
theorem gap_mismatch (l : GapFill.Spec.Layout) (d0 d1 w : Nat) (src : GapFill.Buf) (h1 : l.gx + 1 < 2 ^ 31) (h2 : l.gy + 1 < 2 ^ 31)
    (h3 : l.gy * l.cy < 2 ^ 31) (h4 : l.gx * l.cx < 2 ^ 31)
    (h : ¬ (d0 = l.gy * l.cy ∧ d1 = l.gx * l.cx ∧ l.gx + 1 = l.gapsX.length ∧ l.gy + 1 = l.gapsY.length)) :
    GapFill.processFrameI (GapFill.Spec.cfg l) [d0, d1] w src = .dropped := by
  have e0 : (l.gy : Int) * (l.cy : Int) = ((l.gy * l.cy : Nat) : Int) := by push_cast; rfl
  have e1 : (l.gx : Int) * (l.cx : Int) = ((l.gx * l.cx : Nat) : Int) := by push_cast; rfl
  have hv : GapFill.configurationValidI (GapFill.Spec.cfg l) [d0, d1] = some false := by
    show ((GapFill.i32 ((l.gy : Int) * (l.cy : Int))).bind fun p => if (d0 : Int) ≠ GapFill.u64 p then some false
      else (GapFill.i32 ((l.gx : Int) * (l.cx : Int))).bind fun q => if (d1 : Int) ≠ GapFill.u64 q then some false
        else GapFill.gapsFit l.gx l.gy (GapFill.Spec.cfg l)) = some false
    rw [e0, e1, GapFill.i32_ok _ h3, Option.bind_some, GapFill.u64_ok _ (by omega)]
    by_cases c0 : (d0 : Int) ≠ ((l.gy * l.cy : Nat) : Int)
    · rw [if_pos c0]
    · rw [if_neg c0, GapFill.i32_ok _ h4, Option.bind_some, GapFill.u64_ok _ (by omega)]
      by_cases c1 : (d1 : Int) ≠ ((l.gx * l.cx : Nat) : Int)
      · rw [if_pos c1]
      · rw [if_neg c1]
        exact gapsFit_false l h1 h2 fun c2 => h ⟨by omega, by omega, c2.1, c2.2⟩
  exact processI_false _ _ _ _ hv

/-- The gap fill plugin, configured, and a frame with two dimensions. -/
theorem gap_safe (l : GapFill.Spec.Layout) (d0 d1 w : Nat) (src : GapFill.Buf) (hs : d0 * d1 * w ≤ src.size) (h8 : w ≤ 8) (h1 : l.gx + 1 < 2 ^ 31)
    (h2 : l.gy + 1 < 2 ^ 31) (h3 : l.cx * 8 < 2 ^ 31) (h4 : GapFill.Spec.height l < 2 ^ 31) (h5 : GapFill.Spec.width l < 2 ^ 31)
    (h6 : GapFill.Spec.Complete l → GapFill.Spec.height l * GapFill.Spec.width l * 8 ≤ 2 ^ 31 - 17) :
    GapFill.processFrameI (GapFill.Spec.cfg l) [d0, d1] w src = .dropped ∨
    ∃ out, GapFill.processFrameI (GapFill.Spec.cfg l) [d0, d1] w src
        = .pushed [(GapFill.Spec.height l : Int), (GapFill.Spec.width l : Int)] out ∧
      out.size = GapFill.Spec.height l * GapFill.Spec.width l * w ∧ GapFill.Spec.Complete l := by
  have hh := GapFill.height_ge l
  have hw := GapFill.width_ge l
  by_cases h : d0 = l.gy * l.cy ∧ d1 = l.gx * l.cx ∧ l.gx + 1 = l.gapsX.length ∧ l.gy + 1 = l.gapsY.length
  · obtain ⟨rfl, rfl, c, d⟩ := h
    have hc : GapFill.Spec.Complete l := ⟨by omega, by omega⟩
    have hb := h6 hc
    have m1 : GapFill.Spec.height l * GapFill.Spec.width l * w ≤ GapFill.Spec.height l * GapFill.Spec.width l * 8 := Nat.mul_le_mul_left _ h8
    have m2 : l.cx * w ≤ l.cx * 8 := Nat.mul_le_mul_left _ h8
    obtain ⟨out, a1, a2, _⟩ := GapFill.C20_partial { l with sz := w } src hc
      ⟨h2, h1, h4, h5, by show GapFill.Spec.height l * GapFill.Spec.width l < _; omega,
        by show GapFill.Spec.height l * GapFill.Spec.width l * w < _; omega, by show l.cx * w < _; omega⟩ hs
    exact Or.inr ⟨out, a1, a2, hc⟩
  · exact Or.inl (gap_mismatch l d0 d1 w src h1 h2 (Nat.lt_of_le_of_lt hh h4) (Nat.lt_of_le_of_lt hw h5) h)

theorem max_eq : maxBuffer = 2 ^ 31 - 17 := by unfold maxBuffer overhead; rfl

/-- What holds: a truthful frame that is not compressed, has two dimensions and an image that is not larger than what the
compressor takes, on every way with configured gap fill plugins whose images are not larger either, on which nothing is done to
the image after its compression. -/
theorem C134_partial (k : Codec) (hb : Bounded k) (l : List Stage) : ∀ (f : Fr), BloscLast l → (∀ s ∈ l, Fits s) →
    Truthful k f → f.comp = .no → f.dims.length = 2 → f.image.length ≤ 2 ^ 31 - 17 → Safe (run k l f) := by
  induction l with
  | nil => intro f _ _ _ _ _ _; exact safe_pushed f
  | cons s l ih =>
    intro f hl hg hf hc hd hm
    have hg' : ∀ s ∈ l, Fits s := fun x hx => hg x (List.mem_cons_of_mem _ hx)
    cases s with
    | pass keep =>
      cases keep with
      | true => exact ih f hl hg' hf hc hd hm
      | false => exact safe_dropped
    | sum =>
      obtain ⟨g, hs⟩ := sumUp_int f (by omega)
      obtain ⟨a, b, c, d, _⟩ := sumUp_keeps hs
      simp only [run, Stage.work, hs, Res.bind]
      have hc1 : g.comp = .no := d.trans hc
      refine ih g hl hg' ?_ hc1 (by rw [b]; exact hd) (by rw [a]; exact hm)
      rw [truthful_plain k _ hc1, a, b, c]
      exact (truthful_plain k _ hc).1 hf
    | gapFill c =>
      obtain ⟨w, hw, hlen⟩ := (truthful_plain k f hc).1 hf
      obtain ⟨lay, rfl, k1, k2, k3, k4, k5, hfit⟩ := hg _ List.mem_cons_self
      have h8 := bytes_le f.dtype w (by rw [← sizeOf_bytes]; exact hw)
      have hdims : ∃ d0 d1, f.dims = [d0, d1] := by
        match f.dims, hd with
        | [a, b], _ => exact ⟨a, b, rfl⟩
      obtain ⟨d0, d1, hdims⟩ := hdims
      have hsz : d0 * d1 * w ≤ (bufOf (f.image ++ f.behind)).size := by
        show _ ≤ (f.image ++ f.behind).length
        rw [List.length_append, hlen, hdims]
        simp only [pixels, Nat.mul_one]
        omega
      rcases gap_safe lay d0 d1 w _ hsz h8 k1 k2 k3 k4 k5 hfit with e | ⟨out, e, hout, hcomp⟩
      · have : insertGaps (GapFill.Spec.cfg lay) f = .dropped := by
          unfold insertGaps; rw [hw]; dsimp only; rw [hdims, e]
        simp only [run, Stage.work, this, Res.bind]
        exact safe_dropped
      · have : insertGaps (GapFill.Spec.cfg lay) f = .pushed ⟨f.dtype,
            [(GapFill.Spec.height lay : Int), (GapFill.Spec.width lay : Int)].map toDim, f.comp,
            bytesOf out.size out.data, [], f.sum⟩ := by
          unfold insertGaps; rw [hw]; dsimp only; rw [hdims, e]
        simp only [run, Stage.work, this, Res.bind]
        have hgaps : Gaps (.gapFill (GapFill.Spec.cfg lay)) := by
          refine ⟨?_, ?_, ?_, ?_⟩
          · intro g hg
            obtain ⟨n, _, rfl⟩ := List.mem_map.1 hg
            omega
          · intro g hg
            obtain ⟨n, _, rfl⟩ := List.mem_map.1 hg
            omega
          · intro g hg
            simp only [GapFill.Spec.cfg, List.mem_cons, List.not_mem_nil, or_false] at hg
            omega
          · intro g hg
            simp only [GapFill.Spec.cfg, List.mem_cons, List.not_mem_nil, or_false] at hg
            omega
        obtain ⟨ht, hc1, _⟩ := gaps_truthful k _ f _ hgaps hc this
        refine ih _ hl hg' ht hc1 rfl ?_
        show (bytesOf out.size out.data).length ≤ _
        rw [bytesOf_length, hout]
        exact Nat.le_trans (Nat.mul_le_mul_left _ h8) (hfit hcomp)
    | blosc level shuffle left =>
      have hl : ∀ s ∈ l, Keeps s := hl
      obtain ⟨w, hw, hlen⟩ := (truthful_plain k f hc).1 hf
      have e : compress k level shuffle left f = .pushed ⟨f.dtype, f.dims, .blosc,
          k.enc level shuffle w f.image, bytesOf (f.image.length + overhead - (k.enc level shuffle w f.image).length) left, f.sum⟩ := by
        unfold compress
        rw [hw]
        dsimp only
        rw [if_neg (by rw [max_eq]; omega)]
      simp only [run, Stage.work, e, Res.bind]
      refine safe_keeps k l hl _ ?_
      have := hb level shuffle w f.image
      show (k.enc level shuffle w f.image).length < _
      omega

end

/-- Non-vacuity: the way of C131, and a frame that is dropped by a gap fill plugin configured for another size. -/
example : Fits (.gapFill ⟨[1, 2], [1, 1], [0, 1, 0], [0, 0]⟩) :=
  ⟨⟨1, 2, 1, 1, [0, 0], [0, 1, 0], 1⟩, rfl, by decide, by decide, by decide, by decide, by decide, fun _ => by decide⟩
example : BloscLast exWay ∧ Truthful exCodec exIn ∧ exIn.comp = .no ∧ exIn.dims.length = 2 ∧ exIn.image.length ≤ 2 ^ 31 - 17 := by
  refine ⟨?_, ⟨_, _, rfl, rfl, rfl⟩, rfl, rfl, by decide⟩
  intro s hs; simp at hs; subst hs; trivial
example : run exCodec [.gapFill ⟨[1, 2], [1, 1], [0, 1, 0], [0, 0]⟩] exFr = .dropped := by decide

end Verif.Pipeline
