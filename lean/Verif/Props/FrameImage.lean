import Verif.Model.FrameImage
/-!
C101: the image of a frame lies inside its data.
-/
namespace Verif.FrameImage

/-- The image is inside the data. -/
def Inside (f : Fr) : Prop := 0 ≤ f.off ∧ 0 ≤ f.img ∧ f.off + f.img ≤ f.data

instance (f : Fr) : Decidable (Inside f) := inferInstanceAs (Decidable (_ ∧ _ ∧ _))

/-- Arguments of the types of the parameters. -/
def Typed : Op → Prop
  | .data n => 0 ≤ n ∧ n < 2 ^ 64
  | .image n => -2 ^ 31 ≤ n ∧ n < 2 ^ 31
  | .offset n => -2 ^ 31 ≤ n ∧ n < 2 ^ 31

/-- C101, full statement: a frame whose offset is not beyond its data, after any calls. -/
def C101_statement : Prop :=
  ∀ (size off : Int) (l : List Op), 0 ≤ off → off ≤ size → size < 2 ^ 64 → off < 2 ^ 31 → (∀ o ∈ l, Typed o) → Inside (run (mk size off) l)

theorem toInt_id (n : Int) (h : -2 ^ 31 ≤ n) (h2 : n < 2 ^ 31) : toInt n = n := by
  unfold toInt
  omega

theorem toSize_id (n : Int) (h : 0 ≤ n) (h2 : n < 2 ^ 64) : toSize n = n := by
  unfold toSize
  omega

theorem diff (size off : Int) (h0 : 0 ≤ off) (h1 : off ≤ size) (h2 : size - off < 2 ^ 31) (h3 : size < 2 ^ 64) :
    toInt (toSize (size - toSize off)) = size - off := by
  rw [toSize_id off h0 (by omega), toSize_id _ (by omega) (by omega), toInt_id _ (by omega) (by omega)]

/-- Calls that make sense: the data are not cut below the end of the image, the image fits, the offset is inside the data and leaves an image
whose size is an `int`. -/
def Sane (f : Fr) : Op → Prop
  | .data n => f.off + f.img ≤ n
  | .image n => 0 ≤ n ∧ f.off + n ≤ f.data
  | .offset n => 0 ≤ n ∧ n ≤ f.data ∧ f.data - n < 2 ^ 31

/-- All calls make sense when they are made. -/
def AllSane (f : Fr) : List Op → Prop
  | [] => True
  | o :: l => Sane f o ∧ AllSane (step f o) l

theorem step_inside (f : Fr) (o : Op) (h : Inside f) (hd : f.data < 2 ^ 64) (ho : Sane f o) :
    Inside (step f o) ∧ (step f o).data < 2 ^ 64 := by
  obtain ⟨h1, h2, h3⟩ := h
  cases o with
  | data n =>
    simp only [step, setData]
    by_cases hn : f.data < n
    · rw [if_pos hn]; exact ⟨⟨h1, h2, h3⟩, hd⟩
    · rw [if_neg hn]
      exact ⟨⟨h1, h2, ho⟩, (show n < 2 ^ 64 by omega)⟩
  | image n => exact ⟨⟨h1, ho.1, ho.2⟩, hd⟩
  | offset n =>
    obtain ⟨g1, g2, g3⟩ := ho
    have e := diff f.data n g1 g2 g3 hd
    refine ⟨⟨g1, ?_, ?_⟩, hd⟩
    · show 0 ≤ toInt (toSize (f.data - toSize n)); omega
    · show n + toInt (toSize (f.data - toSize n)) ≤ f.data; omega

/-- C101, proved part: for images smaller than 2 GiB and calls that make sense. Missing: all others; no setter checks anything but that
the data do not grow. -/
theorem C101_partial (size off : Int) (l : List Op) (h0 : 0 ≤ off) (h1 : off ≤ size) (h2 : size < 2 ^ 64) (h3 : size - off < 2 ^ 31)
    (hl : AllSane (mk size off) l) : Inside (run (mk size off) l) := by
  have key : ∀ (l : List Op) (f : Fr), Inside f → f.data < 2 ^ 64 → AllSane f l → Inside (run f l) := by
    intro l
    induction l with
    | nil => exact fun f h _ _ => h
    | cons o l ih =>
      intro f h hd ha
      obtain ⟨hi, hd'⟩ := step_inside f o h hd ha.1
      exact ih _ hi hd' ha.2
  refine key l _ ?_ h2 hl
  have e := diff size off h0 h1 h3 h2
  refine ⟨h0, ?_, ?_⟩
  · show 0 ≤ toInt (toSize (size - toSize off)); omega
  · show off + toInt (toSize (size - toSize off)) ≤ size; omega

/-- A new frame's image is all the data after the offset. -/
theorem C101_new_partial (size off : Int) (h0 : 0 ≤ off) (h1 : off ≤ size) (h2 : size < 2 ^ 64) (h3 : size - off < 2 ^ 31) :
    (mk size off).off = off ∧ (mk size off).img = size - off ∧ (mk size off).data = size := ⟨rfl, diff size off h0 h1 h3 h2, rfl⟩

/-- After a change of the offset the image is all the data after it. -/
theorem C101_offset_partial (f : Fr) (n : Int) (h0 : 0 ≤ n) (h1 : n ≤ f.data) (h2 : f.data < 2 ^ 64) (h3 : f.data - n < 2 ^ 31) :
    (setOffset f n).off = n ∧ (setOffset f n).img = f.data - n ∧ (setOffset f n).data = f.data := ⟨rfl, diff f.data n h0 h1 h3 h2, rfl⟩

/-- The data never grow; asking for it is an error and changes nothing. -/
theorem C101_shrink (f : Fr) (l : List Op) : (run f l).data ≤ f.data := by
  induction l generalizing f with
  | nil => exact Int.le_refl _
  | cons o l ih =>
    refine Int.le_trans (ih _) ?_
    cases o with
    | data n =>
      simp only [step, setData]
      by_cases hn : f.data < n
      · rw [if_pos hn]; exact Int.le_refl _
      · rw [if_neg hn]; exact (show n ≤ f.data by omega)
    | image n => exact Int.le_refl _
    | offset n => exact Int.le_refl _

/-- Any new frame of 2 GiB up to 4 GiB has a negative image size; taken as a size again it is about 2^64. -/
theorem C101_large (size : Int) (h : 2 ^ 31 ≤ size) (h2 : size < 2 ^ 32) :
    (mk size 0).img = size - 2 ^ 32 ∧ toSize (mk size 0).img = size + (2 ^ 64 - 2 ^ 32) := by
  have e : (mk size 0).img = size - 2 ^ 32 := by
    show toInt (toSize (size - toSize 0)) = _
    unfold toInt toSize
    omega
  refine ⟨e, ?_⟩
  rw [e]
  unfold toSize
  omega

/-- Any new frame of 4 GiB or a multiple of it has an image of size 0. -/
theorem C101_vanishes (k : Int) : (mk (k * 2 ^ 32) 0).img = 0 := by
  show toInt (toSize (k * 2 ^ 32 - toSize 0)) = 0
  unfold toInt toSize
  omega

theorem C101_violated : ¬ C101_statement := by
  intro h
  have := h (2 ^ 31) 0 [] (by decide) (by decide) (by decide) (by decide) (fun o ho => by cases ho)
  revert this
  decide

/-- Cutting the data does not cut the image. -/
theorem C101_cut (f : Fr) (n : Int) (h : Inside f) (hn : n < f.off + f.img) : ¬ Inside (step f (.data n)) := by
  intro hi
  obtain ⟨h1, h2, h3⟩ := h
  simp only [step, setData] at hi
  rw [if_neg (by omega)] at hi
  exact absurd hi.2.2 (show ¬ f.off + f.img ≤ n by omega)

example : Inside (run (mk 1000 16) [.image 500, .offset 100, .image 200, .data 400]) := by decide
example : AllSane (mk 1000 16) [.image 500, .offset 100, .image 200, .data 400] := by
  simp only [AllSane, Sane]; decide
example : ¬ Inside (step (mk 1000 16) (.data 500)) := by decide

end Verif.FrameImage
