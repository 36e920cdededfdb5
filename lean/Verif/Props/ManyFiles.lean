import Verif.Model.ManyFiles
import Verif.Props.EndToEnd
import Verif.Props.Counters
/-! Property C135 with several files: the pixels that arrive are in the file of their frame. -/
namespace Verif.ManyFiles
open Verif.Decoder (Ready Packet LogGood)
open Verif.Decoder.Spec (Ev World Every Regular packetsOf)
open Verif.EndToEnd (Setup)
open Verif.EndToEnd.Spec (Fitting ByteOf FileByte off)

namespace Spec

/-- The same with one file. -/
def one (s : Setup) : Setup := { s with geom := { s.geom with bpf := 0 } }

/-- The frame with this offset belongs to this process. -/
def Owned (s : Setup) (f : Nat) : Prop := f / s.geom.fpb % s.geom.procs = s.geom.rank

/-- How many frames of this process are before the one with this offset. -/
def place (s : Setup) (f : Nat) : Nat := f / s.geom.fpb / s.geom.procs * s.geom.fpb + f % s.geom.fpb

/-- In which of the files of this process it is, and where; every file has `blocks_per_file` blocks of
`frames_per_block` frames. -/
def row (s : Setup) (f : Nat) : Nat := place s f / (s.geom.bpf * s.geom.fpb)
def slot (s : Setup) (f : Nat) : Nat := place s f % (s.geom.bpf * s.geom.fpb)

/-- The number of that file. -/
def number (s : Setup) (r : Nat) : Nat := r * s.geom.procs + s.geom.rank

/-- It is one of those to be written. -/
def Within (s : Setup) (w : Writer) (f : Nat) : Prop := w.unlimited = true ∨ place s f < w.toWrite

/-- The frame is for this process: its number fits into an `int`, and its offset is not negative and belongs to this process. -/
def Mine (s : Setup) (f : Nat) : Prop := f < 2 ^ 31 ∧ 0 ≤ (f : Int) + s.adj ∧ Owned s (off s f)

/-- No frame before this one is more than one file further. -/
def InTime (s : Setup) (l : List (Ready × List (Nat × Nat))) (f : Nat) : Prop :=
  ∀ y ∈ l, Mine s y.1.frame → row s (off s y.1.frame) ≤ row s (off s f) + 1

end Spec
open Spec

/-! ## Numbers of files -/

theorem number_inj (s : Setup) (hP : 0 < s.geom.procs) (i j : Nat) (h : number s i = number s j) : i = j := by
  unfold number at h
  exact Nat.eq_of_mul_eq_mul_right hP (by omega)

theorem number_lt (s : Setup) (hP : 0 < s.geom.procs) (i j : Nat) (h : i < j) : number s i < number s j := by
  unfold number
  have := Nat.mul_lt_mul_of_pos_right h hP
  omega

theorem number_succ (s : Setup) (i : Nat) : number s i + s.geom.procs = number s (i + 1) := by
  unfold number
  rw [Nat.add_mul, Nat.one_mul]
  omega

theorem index_eq (s : Setup) (hB : 0 < s.geom.fpb) (hK : s.geom.bpf ≠ 0) (f : Nat) :
    Placement.fileIndex s.geom f = number s (row s f) := by
  have := Acq.fileOf_local s.geom f hB hK
  unfold Acq.Spec.fileOf at this
  rw [if_neg hK] at this
  exact this

theorem slot_eq (s : Setup) (hB : 0 < s.geom.fpb) (hK : s.geom.bpf ≠ 0) (f : Nat) :
    Placement.offsetInFile s.geom f = slot s f := by
  have h1 := Placement.offsetInFile_at s.geom.rank s.geom.procs s.geom.fpb s.geom.bpf f
  have h2 := Acq.slotOf_local s.geom f hB
  unfold Acq.Spec.slotOf at h2
  rw [← h1, if_neg hK] at h2
  exact h2

theorem place_split (s : Setup) (f : Nat) : place s f = s.geom.bpf * s.geom.fpb * row s f + slot s f := (Nat.div_add_mod _ _).symm

theorem same (s : Setup) (hB : 0 < s.geom.fpb) (f g : Nat) (hf : Owned s f) (hg : Owned s g) (hr : row s f = row s g)
    (hs : slot s f = slot s g) : f = g := by
  refine Acq.localIndex_inj s.geom f g hB hf hg ?_
  show place s f = place s g
  rw [place_split s f, place_split s g, hr, hs]

theorem off_inj (s : Setup) (f g : Nat) (hf : Mine s f) (hg : Mine s g) (h : off s f = off s g) : f = g := by
  have h1 := hf.2.1
  have h2 := hg.2.1
  unfold off at h
  omega

theorem accepts_owned (s : Setup) (hr : s.geom.rank < s.geom.procs) (f : Nat) :
    Placement.acceptsOffset s.geom f = true ↔ Owned s f := by
  rw [EndToEnd.accepts_owner _ _ (by omega)]
  unfold Placement.Spec.owner Owned
  split
  · next h =>
    have : s.geom.rank = 0 := by omega
    rw [this]
  · rfl

/-! ## The dataset of a new file -/

/-- The dataset is large enough for the frames of the file. -/
theorem rows_enough (s : Setup) (w : Writer) (f : Nat) (hB : 0 < s.geom.fpb) (hr : s.geom.rank < s.geom.procs)
    (hK : s.geom.bpf ≠ 0) (h : place s f < w.toWrite) :
    slot s f < Acq.datasetFrames s.geom 1 w.toWrite (number s (row s f)) := by
  have h1 := Acq.datasetFrames_covers s.geom 1 w.toWrite f hB hr (by rw [Nat.mul_one]; exact h)
  rw [Acq.fileOf_local s.geom f hB hK, Acq.slotOf_local s.geom f hB, if_neg hK] at h1
  have h2 : (slot s f + 1) * 1 ≤ Acq.datasetFrames s.geom 1 w.toWrite (number s (row s f)) := h1
  omega

theorem create_isSome (unlimited : Bool) (h w n : Nat) (hw : 0 < w) (hh : 0 < h) (hs : w * h * 2 ≤ 2 ^ 31 - 17)
    (hn : unlimited = true ∨ n ≠ 0) : (Layout.create (α := Nat) unlimited ⟨[h, w], [1, h, w], n, 2⟩).isSome = true := by
  have b1 : h ≤ w * h := Nat.le_mul_of_pos_left h hw
  have b2 : w ≤ w * h := Nat.le_mul_of_pos_right w hh
  have e : h * w = w * h := Nat.mul_comm _ _
  have hv : Layout.valid ⟨[h, w], [1, h, w], n, 2⟩ = true := by
    simp only [Layout.valid, List.all_cons, List.all_nil, Bool.and_true, Bool.and_eq_true, bne_iff_ne, ne_eq]
    omega
  have hc : ∀ c, c = 1 → [c, h, w].all (fun c => decide (0 < c ∧ c < 2 ^ 32)) = true := by
    intro c hc
    simp only [List.all_cons, List.all_nil, Bool.and_true, Bool.and_eq_true, decide_eq_true_eq]
    omega
  have hvol : Layout.vol [1, h, w] * 2 < 2 ^ 32 := by
    simp only [Layout.vol, Nat.one_mul, Nat.mul_one]
    rw [e]
    omega
  unfold Layout.create
  rw [if_neg (by rw [hv]; decide)]
  dsimp only
  rw [if_neg (by simp)]
  cases unlimited with
  | true =>
    rw [if_pos rfl, if_pos]
    · rfl
    · simp only [Layout.accepts, Bool.and_eq_true, decide_eq_true_eq]
      exact ⟨⟨⟨by simp, hc 1 rfl⟩, hvol⟩, by simp [Layout.fitsIn]⟩
  | false =>
    have hn : n ≠ 0 := hn.resolve_left (by decide)
    have hcl : Layout.clamp 1 n = 1 := by unfold Layout.clamp; rw [if_neg (by omega)]
    rw [if_neg (by decide), hcl, if_pos]
    · rfl
    · simp only [Layout.accepts, Bool.and_eq_true, decide_eq_true_eq]
      refine ⟨⟨⟨by simp, hc 1 rfl⟩, hvol⟩, ?_⟩
      simp [Layout.fitsIn]
      omega

theorem fresh_isSome (s : Setup) (w : Writer) (wd h f r : Nat) (hf : Fitting (one s) wd h) (hK : s.geom.bpf ≠ 0)
    (hr : s.geom.rank < s.geom.procs) (hsz : w.size = 2) (hw : Within s w f) (hle : r ≤ row s f) :
    (fresh s w (number s r)).isSome = true := by
  unfold fresh
  rw [show s.dims = [h, wd] from hf.dims, hsz]
  refine create_isSome _ h wd _ hf.wpos hf.hpos hf.small ?_
  rcases hw with hw | hw
  · exact Or.inl hw
  · exact Or.inr (Acq.rows_nonempty s.geom w.toWrite f r hf.fpb hr hK hw hle)

/-! ## The files -/

/-- Files of this process up to `R` have been created, and only the last two are open. -/
structure Inv (s : Setup) (w : Writer) (R : Nat) (st : St) : Prop where
  cur : st.cur = number s R
  prev : st.prev = if R = 0 then none else some (number s (R - 1))
  files : ∀ j, j ≤ R → ∃ d l, fresh s w (number s j) = some d ∧ st.files (number s j) = some (Layout.run s.edge 1 d l)

theorem set_same (files : Nat → Option (Layout.Ds Nat)) (i : Nat) (d : Option (Layout.Ds Nat)) : set files i d i = d := if_pos rfl

theorem set_other (files : Nat → Option (Layout.Ds Nat)) (i j : Nat) (d : Option (Layout.Ds Nat)) (h : j ≠ i) : set files i d j = files j :=
  if_neg h

theorem inv_start (s : Setup) (w : Writer) (old : Nat → Option (Layout.Ds Nat)) (h : (fresh s w (number s 0)).isSome = true) :
    Inv s w 0 (start s w old) := by
  have e : number s 0 = s.geom.rank := by unfold number; omega
  refine ⟨e.symm, rfl, fun j hj => ?_⟩
  have hj0 : j = 0 := by omega
  subst hj0
  obtain ⟨d, hd⟩ := Option.isSome_iff_exists.1 h
  refine ⟨d, [], hd, ?_⟩
  show set old s.geom.rank (fresh s w s.geom.rank) (number s 0) = _
  rw [e, set_same, ← e, hd]
  rfl

theorem inv_create (s : Setup) (w : Writer) (hP : 0 < s.geom.procs) (R : Nat) (st : St) (hi : Inv s w R st)
    (h : (fresh s w (number s (R + 1))).isSome = true) :
    Inv s w (R + 1) (create s w st (number s (R + 1))) ∧
      (create s w st (number s (R + 1))).files (number s (R + 1)) = fresh s w (number s (R + 1)) ∧
      ∀ j, j ≤ R → (create s w st (number s (R + 1))).files (number s j) = st.files (number s j) := by
  have hne : ∀ j, j ≤ R → number s j ≠ number s (R + 1) := fun j hj he => by
    have := number_inj s hP _ _ he
    omega
  have hk : ∀ j, j ≤ R → (create s w st (number s (R + 1))).files (number s j) = st.files (number s j) :=
    fun j hj => set_other _ _ _ _ (hne j hj)
  have hs : (create s w st (number s (R + 1))).files (number s (R + 1)) = fresh s w (number s (R + 1)) := set_same _ _ _
  refine ⟨⟨rfl, ?_, fun j hj => ?_⟩, hs, hk⟩
  · show some st.cur = _
    rw [hi.cur, if_neg (by omega), Nat.add_sub_cancel]
  · by_cases hjR : j ≤ R
    · obtain ⟨d, l, h1, h2⟩ := hi.files j hjR
      exact ⟨d, l, h1, by rw [hk j hjR, h2]⟩
    · have hj1 : j = R + 1 := by omega
      subst hj1
      obtain ⟨d, hd⟩ := Option.isSome_iff_exists.1 h
      exact ⟨d, [], hd, by rw [hs, hd]; rfl⟩

/-- Missing files are created on the way, and nothing happens to those that are there. -/
theorem inv_createUpTo (s : Setup) (w : Writer) (hP : 0 < s.geom.procs) (k : Nat) : ∀ (R : Nat) (st : St), Inv s w R st →
    (∀ j, j ≤ R + 1 + k → (fresh s w (number s j)).isSome = true) →
    ∃ st', createUpTo s w st (number s (R + 1)) (number s (R + 1 + k)) = (st', true) ∧ Inv s w (R + 1 + k) st' ∧
      st'.files (number s (R + 1 + k)) = fresh s w (number s (R + 1 + k)) ∧
      ∀ j, j ≤ R → st'.files (number s j) = st.files (number s j) := by
  induction k with
  | zero =>
    intro R st hi hf
    have h := hf (R + 1) (by omega)
    obtain ⟨h1, h2, h3⟩ := inv_create s w hP R st hi h
    refine ⟨_, ?_, h1, h2, h3⟩
    rw [createUpTo, dif_neg (by rw [Nat.add_zero]; omega), Nat.add_zero, h]
  | succ k ih =>
    intro R st hi hf
    have h := hf (R + 1) (by omega)
    obtain ⟨h1, h2, h3⟩ := inv_create s w hP R st hi h
    obtain ⟨st', a1, a2, a3, a4⟩ := ih (R + 1) _ h1 (fun j hj => hf j (by omega))
    have e : R + 1 + (k + 1) = R + 1 + 1 + k := by omega
    refine ⟨st', ?_, by rw [e]; exact a2, by rw [e]; exact a3, fun j hj => by rw [a4 j (by omega), h3 j hj]⟩
    rw [createUpTo, dif_pos ⟨number_lt s hP _ _ (by omega), hP⟩, if_pos h, number_succ, e]
    exact a1

/-- Choosing the file of a frame. -/
theorem inv_select (s : Setup) (w : Writer) (hP : 0 < s.geom.procs) (R r : Nat) (st : St) (hi : Inv s w R st)
    (hf : ∀ j, j ≤ r → (fresh s w (number s j)).isSome = true) :
    ∃ st', select s w st (number s r) = (st', decide (R ≤ r + 1)) ∧ Inv s w (max R r) st' ∧
      ∀ j, j ≤ R → st'.files (number s j) = st.files (number s j) := by
  unfold select
  by_cases h1 : r = R
  · subst h1
    rw [if_pos hi.cur.symm]
    exact ⟨st, by simp, by rw [Nat.max_self]; exact hi, fun _ _ => rfl⟩
  · have hne : number s r ≠ st.cur := by rw [hi.cur]; exact fun he => h1 (number_inj s hP _ _ he)
    rw [if_neg hne]
    by_cases h2 : R = r + 1
    · subst h2
      have hp : st.prev = some (number s r) := by rw [hi.prev, if_neg (by omega), Nat.add_sub_cancel]
      rw [if_pos hp]
      exact ⟨st, by simp, by rw [Nat.max_eq_left (by omega)]; exact hi, fun _ _ => rfl⟩
    · have hnp : ¬ st.prev = some (number s r) := by
        rw [hi.prev]
        split
        · intro h; cases h
        · intro h
          have := number_inj s hP _ _ (Option.some.inj h)
          omega
      rw [if_neg hnp]
      by_cases h3 : R < r
      · rw [if_pos (by rw [hi.cur]; exact number_lt s hP _ _ h3), hi.cur, number_succ]
        obtain ⟨k, hk⟩ : ∃ k, r = R + 1 + k := ⟨r - (R + 1), by omega⟩
        subst hk
        obtain ⟨st', a1, a2, a3, a4⟩ := inv_createUpTo s w hP k R st hi (fun j hj => hf j hj)
        refine ⟨st', by rw [a1, decide_eq_true (by omega)], ?_, a4⟩
        rw [Nat.max_eq_right (by omega)]
        exact a2
      · have hlt : number s r < number s R := number_lt s hP _ _ (by omega)
        rw [if_neg (by rw [hi.cur]; omega)]
        refine ⟨st, by rw [decide_eq_false (by omega)], ?_, fun _ _ => rfl⟩
        rw [Nat.max_eq_left (by omega)]
        exact hi

theorem run_snoc (edge : Bool) (d : Layout.Ds Nat) (l : List (Nat × List Nat)) (sl : Nat) (img : List Nat) :
    (Layout.write edge (Layout.run edge 1 d l) 1 sl img).1 = Layout.run edge 1 d (l ++ [(sl, img)]) := by
  rw [EndToEnd.run_append]
  rfl

theorem inv_put (s : Setup) (w : Writer) (hP : 0 < s.geom.procs) (R r sl : Nat) (img : List Nat) (st : St) (hi : Inv s w R st)
    (hr : r ≤ R) :
    Inv s w R (put s st (number s r) sl img) ∧
      (put s st (number s r) sl img).files (number s r) = (st.files (number s r)).map (fun d => Layout.run s.edge 1 d [(sl, img)]) ∧
      ∀ j, j ≠ r → (put s st (number s r) sl img).files (number s j) = st.files (number s j) := by
  have hk : ∀ j, j ≠ r → (put s st (number s r) sl img).files (number s j) = st.files (number s j) :=
    fun j hj => set_other _ _ _ _ (fun he => hj (number_inj s hP _ _ he))
  have hs : (put s st (number s r) sl img).files (number s r) = (st.files (number s r)).map (fun d => Layout.run s.edge 1 d [(sl, img)]) :=
    set_same _ _ _
  refine ⟨⟨hi.cur, hi.prev, fun j hj => ?_⟩, hs, hk⟩
  obtain ⟨d, l, h1, h2⟩ := hi.files j hj
  by_cases hjr : j = r
  · subst hjr
    exact ⟨d, l ++ [(sl, img)], h1, by rw [hs, h2, Option.map_some, EndToEnd.run_append]⟩
  · exact ⟨d, l, h1, by rw [hk j hjr, h2]⟩

/-- What one frame does: the newest file is then its own or a later one; it is written if not more than one file behind. -/
theorem inv_frame (s : Setup) (w : Writer) (hP : 0 < s.geom.procs) (R r sl : Nat) (img : List Nat) (st : St) (hi : Inv s w R st)
    (hf : ∀ j, j ≤ r → (fresh s w (number s j)).isSome = true) :
    Inv s w (max R r) (putIf s (select s w st (number s r)) (number s r) sl img) ∧
      (∀ j, j ≤ R → j ≠ r → (putIf s (select s w st (number s r)) (number s r) sl img).files (number s j) = st.files (number s j)) ∧
      (∀ d, r ≤ R → st.files (number s r) = some d →
        ∃ l, (putIf s (select s w st (number s r)) (number s r) sl img).files (number s r) = some (Layout.run s.edge 1 d l) ∧
          ∀ e ∈ l, e.1 = sl) ∧
      (R ≤ r + 1 → ∃ d l, fresh s w (number s r) = some d ∧
        (putIf s (select s w st (number s r)) (number s r) sl img).files (number s r) =
          some (Layout.run s.edge 1 d (l ++ [(sl, img)]))) := by
  obtain ⟨st', h1, h2, h3⟩ := inv_select s w hP R r st hi hf
  rw [h1]
  by_cases hc : R ≤ r + 1
  · have e : putIf s (st', decide (R ≤ r + 1)) (number s r) sl img = put s st' (number s r) sl img := by
      unfold putIf
      rw [if_pos (decide_eq_true hc)]
    rw [e]
    obtain ⟨a1, a2, a3⟩ := inv_put s w hP (max R r) r sl img st' h2 (by omega)
    refine ⟨a1, fun j hj hjr => by rw [a3 j hjr, h3 j hj], fun d hr hd => ⟨[(sl, img)], ?_, ?_⟩, fun _ => ?_⟩
    · rw [a2, h3 r hr, hd]
      rfl
    · intro e he
      rw [List.mem_singleton] at he
      rw [he]
    · obtain ⟨d, l, b1, b2⟩ := h2.files r (by omega)
      exact ⟨d, l, b1, by rw [a2, b2, Option.map_some, EndToEnd.run_append]⟩
  · have e : putIf s (st', decide (R ≤ r + 1)) (number s r) sl img = st' := by
      unfold putIf
      rw [if_neg (by simpa using hc)]
    rw [e]
    refine ⟨h2, fun j hj _ => h3 j hj, fun d hr hd => ⟨[], by rw [h3 r hr, hd]; rfl, fun e he => by cases he⟩, fun h => absurd h hc⟩

/-! ## All frames -/

/-- Numbers of 32 bits, and offsets too. -/
def Bits (s : Setup) (f : Nat) : Prop := f < 2 ^ 32 ∧ (f : Int) + s.adj < 2 ^ 32

/-- The frames that are for this process are accepted, with their offset, and no others. -/
def Plain (s : Setup) (x : Ready × List (Nat × Nat)) : Prop :=
  x.1.buf.frame = x.1.frame ∧ (Mine s x.1.frame → EndToEnd.accepts s x.1.frame = true ∧ EndToEnd.offset s x.1.frame = off s x.1.frame) ∧
    (¬ Mine s x.1.frame → EndToEnd.accepts s x.1.frame = false)

theorem plain_of (s : Setup) (x : Ready × List (Nat × Nat)) (h : x.1.buf.frame = x.1.frame) (ha : -2 ^ 62 ≤ s.adj ∧ s.adj ≤ 2 ^ 62)
    (hr : s.geom.rank < s.geom.procs) (hb : Bits s x.1.frame) : Plain s x := by
  refine ⟨h, fun hm => ?_, fun hm => ?_⟩
  · obtain ⟨a, b⟩ := EndToEnd.accepts_small s x.1.frame ha hm.1 hm.2.1
    exact ⟨a.trans ((accepts_owned s hr _).2 hm.2.2), b⟩
  · by_cases h1 : x.1.frame < 2 ^ 31
    · by_cases h2 : 0 ≤ (x.1.frame : Int) + s.adj
      · rw [(EndToEnd.accepts_small s x.1.frame ha h1 h2).1]
        exact Bool.eq_false_iff.2 (fun h => hm ⟨h1, h2, (accepts_owned s hr _).1 h⟩)
      · exact congrArg (EndToEnd.acceptsAt s) (EndToEnd.adjust_negative s _ h1 (by omega))
    · exact congrArg (EndToEnd.acceptsAt s) (EndToEnd.adjust_large s _ (by omega) hb.1 hb.2)

/-- A buffer of which a frame comes to the file writer, with a file for it if it is of this process. -/
def Fine (s : Setup) (w : Writer) (x : Ready × List (Nat × Nat)) : Prop :=
  (∃ g, EndToEnd.sent s x.1 = some (.pushed g) ∧ EndToEnd.valid s g = true) ∧ Plain s x ∧
    (Mine s x.1.frame → ∀ j, j ≤ row s (off s x.1.frame) → (fresh s w (number s j)).isSome = true)

theorem deliver_owned (s : Setup) (w : Writer) (hB : 0 < s.geom.fpb) (hK : s.geom.bpf ≠ 0) (hr : s.geom.rank < s.geom.procs) (st : St)
    (x : Ready × List (Nat × Nat)) (g : Pipeline.Fr) (h1 : EndToEnd.sent s x.1 = some (.pushed g)) (h2 : EndToEnd.valid s g = true)
    (hfr : Plain s x) (ho : Mine s x.1.frame) :
    deliver s w st x.1 = some (putIf s (select s w st (number s (row s (off s x.1.frame)))) (number s (row s (off s x.1.frame)))
      (slot s (off s x.1.frame)) g.image) := by
  unfold deliver
  rw [h1, Option.bind_some, hfr.1]
  show some (acquire s w x.1.frame g st) = _
  unfold acquire
  rw [h2, (hfr.2.1 ho).1, (hfr.2.1 ho).2, index_eq s hB hK, slot_eq s hB hK]
  rfl

theorem deliver_other (s : Setup) (w : Writer) (hr : s.geom.rank < s.geom.procs) (st : St) (x : Ready × List (Nat × Nat)) (g : Pipeline.Fr)
    (h1 : EndToEnd.sent s x.1 = some (.pushed g)) (hfr : Plain s x) (ho : ¬ Mine s x.1.frame) :
    deliver s w st x.1 = some st := by
  unfold deliver
  rw [h1, Option.bind_some, hfr.1]
  show some (acquire s w x.1.frame g st) = _
  unfold acquire
  rw [hfr.2.2 ho, Bool.and_false]
  rfl

theorem deliver_all (s : Setup) (w : Writer) (hB : 0 < s.geom.fpb) (hK : s.geom.bpf ≠ 0) (hr : s.geom.rank < s.geom.procs)
    (l : List (Ready × List (Nat × Nat))) : (∀ x ∈ l, Fine s w x) → ∀ (R : Nat) (st : St), Inv s w R st →
    ∃ st' R', deliverAll s w st (l.map (·.1)) = some st' ∧ Inv s w R' st' ∧ R ≤ R' ∧
      (R' = R ∨ ∃ y ∈ l, Mine s y.1.frame ∧ row s (off s y.1.frame) = R') ∧
      ∀ r d, r ≤ R → st.files (number s r) = some d →
        ∃ later, st'.files (number s r) = some (Layout.run s.edge 1 d later) ∧
          ∀ e ∈ later, ∃ y ∈ l, Mine s y.1.frame ∧ row s (off s y.1.frame) = r ∧ e.1 = slot s (off s y.1.frame) := by
  induction l with
  | nil =>
    intro _ R st hi
    exact ⟨st, R, rfl, hi, Nat.le_refl _, Or.inl rfl, fun r d _ hd => ⟨[], hd, fun e he => by cases he⟩⟩
  | cons x l ih =>
    intro hl R st hi
    obtain ⟨⟨g, h1, h2⟩, hfr, hfresh⟩ := hl x List.mem_cons_self
    have hl' : ∀ y ∈ l, Fine s w y := fun y hy => hl y (List.mem_cons_of_mem _ hy)
    by_cases ho : Mine s x.1.frame
    · have hd := deliver_owned s w hB hK hr st x g h1 h2 hfr ho
      obtain ⟨a1, a2, a3, _⟩ := inv_frame s w (by omega) R (row s (off s x.1.frame)) (slot s (off s x.1.frame)) g.image st hi (hfresh ho)
      generalize putIf s (select s w st (number s (row s (off s x.1.frame)))) (number s (row s (off s x.1.frame))) (slot s (off s x.1.frame)) g.image = st1 at hd a1 a2 a3
      obtain ⟨st', R', b1, b2, b3, b4, b5⟩ := ih hl' _ st1 a1
      refine ⟨st', R', ?_, b2, by omega, ?_, ?_⟩
      · rw [List.map_cons]
        unfold deliverAll
        rw [hd]
        exact b1
      · rcases b4 with b4 | ⟨y, hy, c1, c2⟩
        · by_cases hm : R ≤ row s (off s x.1.frame)
          · exact Or.inr ⟨x, List.mem_cons_self, ho, by omega⟩
          · exact Or.inl (by omega)
        · exact Or.inr ⟨y, List.mem_cons_of_mem _ hy, c1, c2⟩
      · intro r d hrR hd0
        by_cases hrx : r = row s (off s x.1.frame)
        · obtain ⟨l0, c1, c2⟩ := a3 d (hrx ▸ hrR) (hrx ▸ hd0)
          rw [← hrx] at c1
          obtain ⟨later, c3, c4⟩ := b5 r _ (Nat.le_trans hrR (Nat.le_max_left _ _)) c1
          refine ⟨l0 ++ later, by rw [c3, EndToEnd.run_append], fun e he => ?_⟩
          rcases List.mem_append.1 he with he | he
          · exact ⟨x, List.mem_cons_self, ho, hrx.symm, c2 e he⟩
          · obtain ⟨y, hy, c5⟩ := c4 e he
            exact ⟨y, List.mem_cons_of_mem _ hy, c5⟩
        · obtain ⟨later, c3, c4⟩ := b5 r d (Nat.le_trans hrR (Nat.le_max_left _ _)) (by rw [a2 r hrR hrx]; exact hd0)
          refine ⟨later, c3, fun e he => ?_⟩
          obtain ⟨y, hy, c5⟩ := c4 e he
          exact ⟨y, List.mem_cons_of_mem _ hy, c5⟩
    · have hd := deliver_other s w hr st x g h1 hfr ho
      obtain ⟨st', R', b1, b2, b3, b4, b5⟩ := ih hl' R st hi
      refine ⟨st', R', ?_, b2, b3, ?_, ?_⟩
      · rw [List.map_cons]
        unfold deliverAll
        rw [hd]
        exact b1
      · rcases b4 with b4 | ⟨y, hy, c1, c2⟩
        · exact Or.inl b4
        · exact Or.inr ⟨y, List.mem_cons_of_mem _ hy, c1, c2⟩
      · intro r d hrR hd0
        obtain ⟨later, c3, c4⟩ := b5 r d hrR hd0
        refine ⟨later, c3, fun e he => ?_⟩
        obtain ⟨y, hy, c5⟩ := c4 e he
        exact ⟨y, List.mem_cons_of_mem _ hy, c5⟩

theorem deliverAll_append (s : Setup) (w : Writer) (a b : List Ready) (st : St) :
    deliverAll s w st (a ++ b) = (deliverAll s w st a).bind (fun st => deliverAll s w st b) := by
  induction a generalizing st with
  | nil => rfl
  | cons r a ih =>
    rw [List.cons_append]
    show (deliver s w st r).bind _ = ((deliver s w st r).bind _).bind _
    cases deliver s w st r with
    | none => rfl
    | some st1 => exact ih st1

theorem fine_of (s : Setup) (w : Writer) (wd h : Nat) (hf : Fitting (one s) wd h) (hK : s.geom.bpf ≠ 0)
    (hr : s.geom.rank < s.geom.procs) (hsz : w.size = 2) (log : List (Ready × List (Nat × Nat)))
    (hlog : ∀ x ∈ log, LogGood s.rx x ∧ (x.2.map (·.1)).Nodup) (hb : ∀ x ∈ log, Bits s x.1.frame) (hw : ∀ x ∈ log, Mine s x.1.frame → Within s w (off s x.1.frame)) :
    ∀ x ∈ log, Fine s w x := by
  intro x hx
  obtain ⟨f, g, h1, h2, _⟩ := EndToEnd.sent_all (one s) wd h hf log hlog x hx
  exact ⟨⟨g, h1, h2⟩, plain_of s x (hlog x hx).1.1.frame hf.adj hr (hb x hx), fun ho j hj => fresh_isSome s w wd h _ j hf hK hr hsz (hw x hx ho) hj⟩

/-- The frame of `x`, if it comes in time and no frame with its number is handed on after it, is in its file. -/
theorem file_of (s : Setup) (w : Writer) (wd h : Nat) (hf : Fitting (one s) wd h) (hK : s.geom.bpf ≠ 0)
    (hr : s.geom.rank < s.geom.procs) (hsz : w.size = 2) (old : Nat → Option (Layout.Ds Nat)) (log : List (Ready × List (Nat × Nat)))
    (hlog : ∀ x ∈ log, LogGood s.rx x ∧ (x.2.map (·.1)).Nodup) (hb : ∀ x ∈ log, Bits s x.1.frame) (hw : ∀ x ∈ log, Mine s x.1.frame → Within s w (off s x.1.frame))
    (hfirst : (fresh s w (number s 0)).isSome = true) :
    ∃ st, deliverAll s w (start s w old) (log.map (·.1)) = some st ∧
      ∀ l1 x l2, log = l1 ++ x :: l2 → (∀ y ∈ l2, y.1.frame ≠ x.1.frame) → Mine s x.1.frame → InTime s l1 x.1.frame →
        ∃ d, st.files (number s (row s (off s x.1.frame))) = some d ∧
          ∀ q, q < wd * h * 2 → ∃ v, FileByte s wd d (slot s (off s x.1.frame)) q v ∧ ByteOf s.rx.size s.bytes x.2 q v := by
  have hB : 0 < s.geom.fpb := hf.fpb
  have hfine := fine_of s w wd h hf hK hr hsz log hlog hb hw
  obtain ⟨st, _, hst, _⟩ := deliver_all s w hB hK hr log hfine 0 _ (inv_start s w old hfirst)
  refine ⟨st, hst, ?_⟩
  intro l1 x l2 hsplit hlater ho hin
  have hx : x ∈ log := by rw [hsplit]; simp
  obtain ⟨f, g, h1, h2, hlen, hseen, hbytes⟩ := EndToEnd.sent_all (one s) wd h hf log hlog x hx
  obtain ⟨st1, R1, a1, a2, _, a4, _⟩ := deliver_all s w hB hK hr l1 (fun y hy => hfine y (by rw [hsplit]; simp [hy])) 0 _ (inv_start s w old hfirst)
  have hR : R1 ≤ row s (off s x.1.frame) + 1 := by
    rcases a4 with a4 | ⟨y, hy, c1, c2⟩
    · omega
    · rw [← c2]; exact hin y hy c1
  obtain ⟨_, hfr, hfresh⟩ := hfine x hx
  obtain ⟨b1, _, _, b4⟩ := inv_frame s w (by omega) R1 (row s (off s x.1.frame)) (slot s (off s x.1.frame)) g.image st1 a2 (hfresh ho)
  have hd := deliver_owned s w hB hK hr st1 x g h1 h2 hfr ho
  obtain ⟨d0, before, c1, c2⟩ := b4 hR
  generalize putIf s (select s w st1 (number s (row s (off s x.1.frame)))) (number s (row s (off s x.1.frame))) (slot s (off s x.1.frame)) g.image = st2 at hd b1 c2
  obtain ⟨st3, _, e1, _, _, _, e5⟩ := deliver_all s w hB hK hr l2 (fun y hy => hfine y (by rw [hsplit]; simp [hy])) _ st2 b1
  obtain ⟨later, e6, e7⟩ := e5 _ _ (by omega) c2
  have hst3 : st3 = st := by
    rw [hsplit, List.map_append, List.map_cons, deliverAll_append, a1, Option.bind_some] at hst
    unfold deliverAll at hst
    rw [hd, Option.bind_some, e1] at hst
    exact Option.some.inj hst
  subst hst3
  refine ⟨_, e6, fun q hq => ?_⟩
  obtain ⟨v, hv1, hv2⟩ := hbytes q hq
  refine ⟨v, ?_, hv2⟩
  have hlast : ∀ e ∈ later, e.1 ≠ slot s (off s x.1.frame) := by
    intro e he heq
    obtain ⟨y, hy, k1, k2, k3⟩ := e7 e he
    exact hlater y hy (off_inj s _ _ k1 ho (same s hB _ _ k1.2.2 ho.2.2 k2 (by rw [← k3]; exact heq)))
  have hroom : w.unlimited = true ∨ slot s (off s x.1.frame) < Acq.datasetFrames s.geom 1 w.toWrite (number s (row s (off s x.1.frame))) := by
    rcases hw x hx ho with hu | hu
    · exact Or.inl hu
    · exact Or.inr (rows_enough s w _ hB hr hK hu)
  unfold fresh at c1
  rw [show s.dims = [h, wd] from hf.dims, hsz] at c1
  have hb := EndToEnd.byte_of (one s) wd h hf w.unlimited _ d0 c1 before later (slot s (off s x.1.frame)) g.image f.image hlast hroom hlen hseen q v hq hv1
  have hae : Layout.after (one s).edge 1 d0 before (slot s (off s x.1.frame)) g.image later =
      Layout.run s.edge 1 (Layout.run s.edge 1 d0 (before ++ [(slot s (off s x.1.frame), g.image)])) later := by
    rw [EndToEnd.run_append]
    rfl
  rw [hae] at hb
  exact hb

/-- With several files: all bytes of the frame that was handed on last with its number are in its file as they were sent, and
zeros for the packets of it that did not arrive, if none of the frames handed on before it goes more than one file further
and no frame beyond those to be written comes. Files of an earlier acquisition do not matter. -/
theorem C135_files_partial (s : Setup) (w : Writer) (wd h : Nat) (hf : Fitting (one s) wd h) (hK : s.geom.bpf ≠ 0)
    (hr : s.geom.rank < s.geom.procs) (hsz : w.size = 2) (hto : w.unlimited = true ∨ 0 < w.toWrite)
    (old : Nat → Option (Layout.Ds Nat)) (evs : List Ev) (W : World) (hp : Every s.rx (Regular s.rx) (Decoder.Spec.init s.rx) evs)
    (hrun : Decoder.Spec.run s.rx (Decoder.Spec.init s.rx) evs = some W)
    (hb : ∀ x ∈ W.log, Bits s x.1.frame) (hw : ∀ x ∈ W.log, Mine s x.1.frame → Within s w (off s x.1.frame)) :
    ∃ st, deliverAll s w (start s w old) (W.log.map (·.1)) = some st ∧
      ∀ l1 x l2, W.log = l1 ++ x :: l2 → (∀ y ∈ l2, y.1.frame ≠ x.1.frame) → Mine s x.1.frame → InTime s l1 x.1.frame →
        ∃ d, st.files (number s (row s (off s x.1.frame))) = some d ∧
          ∀ q, q < wd * h * 2 → ∃ v, FileByte s wd d (slot s (off s x.1.frame)) q v ∧ ByteOf s.rx.size s.bytes x.2 q v := by
  have hfirst : (fresh s w (number s 0)).isSome = true := by
    obtain ⟨o, _, h2⟩ := Acq.localIndex_surj s.geom 0 hf.fpb hr
    refine fresh_isSome s w wd h o 0 hf hK hr hsz ?_ (Nat.zero_le _)
    rcases hto with h0 | h0
    · exact Or.inl h0
    · exact Or.inr (by rw [show place s o = 0 from h2]; exact h0)
  exact file_of s w wd h hf hK hr hsz old W.log (fun x hx =>
    ⟨(Decoder.run_inv s.rx hf.accepted evs W hp hrun).log x hx, (EndToEnd.apart_run s.rx evs W hp hrun).2 x hx⟩) hb hw hfirst

/-- If the acquisition is over all of `total` frames, those are to be written. -/
theorem within_total (s : Setup) (w : Writer) (total f : Nat) (hB : 0 < s.geom.fpb) (hr : s.geom.rank < s.geom.procs)
    (hw : w.toWrite = Placement.calcNumFrames s.geom total) (ho : Owned s f) (h : f < total) : Within s w f := by
  refine Or.inr ?_
  rw [hw]
  exact Acq.localIndex_lt s.geom f total hB hr ho h

/-- A frame that comes too late, after one that goes at least two files further, is not written at all. -/
theorem C135_too_late (s : Setup) (w : Writer) (wd h : Nat) (hf : Fitting (one s) wd h) (hK : s.geom.bpf ≠ 0)
    (hr : s.geom.rank < s.geom.procs) (hsz : w.size = 2) (old : Nat → Option (Layout.Ds Nat)) (l1 : List (Ready × List (Nat × Nat)))
    (x y : Ready × List (Nat × Nat)) (hlog : ∀ z ∈ l1 ++ [x], LogGood s.rx z ∧ (z.2.map (·.1)).Nodup)
    (hb : ∀ z ∈ l1 ++ [x], Bits s z.1.frame)
    (hw : ∀ z ∈ l1 ++ [x], Mine s z.1.frame → Within s w (off s z.1.frame)) (hfirst : (fresh s w (number s 0)).isSome = true)
    (ho : Mine s x.1.frame) (hy : y ∈ l1) (hyo : Mine s y.1.frame) (hlate : row s (off s x.1.frame) + 1 < row s (off s y.1.frame)) :
    deliverAll s w (start s w old) ((l1 ++ [x]).map (·.1)) = deliverAll s w (start s w old) (l1.map (·.1)) := by
  have hB : 0 < s.geom.fpb := hf.fpb
  have hfine := fine_of s w wd h hf hK hr hsz (l1 ++ [x]) hlog hb hw
  obtain ⟨a, b, hab⟩ := List.append_of_mem hy
  obtain ⟨st1, R1, a1, a2, _, _, _⟩ := deliver_all s w hB hK hr a (fun z hz => hfine z (by rw [hab]; simp [hz])) 0 _ (inv_start s w old hfirst)
  obtain ⟨⟨gy, y1, y2⟩, yfr, yfresh⟩ := hfine y (by simp [hy])
  have hdy := deliver_owned s w hB hK hr st1 y gy y1 y2 yfr hyo
  obtain ⟨b1, _, _, _⟩ := inv_frame s w (by omega) R1 (row s (off s y.1.frame)) (slot s (off s y.1.frame)) gy.image st1 a2 (yfresh hyo)
  generalize putIf s (select s w st1 (number s (row s (off s y.1.frame)))) (number s (row s (off s y.1.frame))) (slot s (off s y.1.frame)) gy.image = st2 at hdy b1
  obtain ⟨st3, R3, e1, e2, e3, _, _⟩ := deliver_all s w hB hK hr b (fun z hz => hfine z (by rw [hab]; simp [hz])) _ st2 b1
  have hpre : deliverAll s w (start s w old) (l1.map (·.1)) = some st3 := by
    rw [hab, List.map_append, List.map_cons, deliverAll_append, a1, Option.bind_some]
    show (deliver s w st1 y.1).bind _ = _
    rw [hdy]
    exact e1
  obtain ⟨⟨g, x1, x2⟩, xfr, xfresh⟩ := hfine x (by simp)
  have hdx := deliver_owned s w hB hK hr st3 x g x1 x2 xfr ho
  have hR3 : row s (off s x.1.frame) + 1 < R3 := by
    have := Nat.le_max_right R1 (row s (off s y.1.frame))
    omega
  obtain ⟨st4, c1, _, _⟩ := inv_select s w (by omega) R3 (row s (off s x.1.frame)) st3 e2 (xfresh ho)
  have hst4 : st4 = st3 := by
    have hn : number s (row s (off s x.1.frame)) < number s R3 := number_lt s (by omega) _ _ (by omega)
    unfold select at c1
    rw [if_neg (by rw [e2.cur]; omega), if_neg, if_neg (by rw [e2.cur]; omega)] at c1
    · exact (Prod.mk.inj c1).1.symm
    · rw [e2.prev, if_neg (by omega)]
      intro he
      have := number_inj s (by omega) _ _ (Option.some.inj he)
      omega
  rw [List.map_append, deliverAll_append, hpre, Option.bind_some]
  show (deliver s w st3 x.1).bind _ = _
  rw [hdx, c1, hst4]
  unfold putIf
  rw [if_neg (by simp; omega)]
  rfl

/-- Non-vacuity: one frame to a file; frame 1 is complete before frame 0, and both are in their files. -/
def exSetup : Setup := { EndToEnd.exSetup with geom := ⟨0, 1, 1, 1⟩ }

def exWriter : Writer := ⟨false, 3, 2⟩

theorem exFitting : Fitting (one exSetup) 2 1 := EndToEnd.exFitting

/-- The pixels of the only frame in file `i`. -/
def pixels (evs : List Ev) (i : Nat) : Option (List (Option (List Nat))) :=
  (Decoder.Spec.run exSetup.rx (Decoder.Spec.init exSetup.rx) evs).bind (fun W =>
    (deliverAll exSetup exWriter (start exSetup exWriter (fun _ => none)) (W.log.map (·.1))).bind (fun st =>
      (st.files i).map (fun d => [[0, 0, 0], [0, 0, 1]].map (Layout.element 0 (Pipeline.view exSetup.codec true d)))))

example : pixels EndToEnd.mixed 0 = some [some [10, 11], some [20, 21]] ∧ pixels EndToEnd.mixed 1 = some [some [40, 41], some [30, 31]] ∧
    pixels EndToEnd.mixed 2 = none := by decide +kernel

/-- The same with one taken off the offset of every frame: frame 0 is not written, frame 1 is in file 0. -/
def adjusted (a : Int) (evs : List Ev) (i : Nat) : Option (List (Option (List Nat))) :=
  (Decoder.Spec.run exSetup.rx (Decoder.Spec.init exSetup.rx) evs).bind (fun W =>
    (deliverAll { exSetup with adj := a } exWriter (start exSetup exWriter (fun _ => none)) (W.log.map (·.1))).bind (fun st =>
      (st.files i).map (fun d => [[0, 0, 0], [0, 0, 1]].map (Layout.element 0 (Pipeline.view exSetup.codec true d)))))

example : adjusted (-1) EndToEnd.mixed 0 = some [some [40, 41], some [30, 31]] ∧ adjusted (-1) EndToEnd.mixed 1 = none ∧
    adjusted 1 EndToEnd.mixed 1 = some [some [10, 11], some [20, 21]] ∧ adjusted 1 EndToEnd.mixed 2 = some [some [40, 41], some [30, 31]] := by
  decide +kernel

example : ¬ Mine { exSetup with adj := -1 } 0 ∧ Mine { exSetup with adj := -1 } 1 ∧ Bits { exSetup with adj := -1 } 1 := by
  unfold Mine Bits Owned off
  decide

/-- Frame 2 is complete before frame 0: the file of frame 0 is there, and empty. -/
def tooLate : List Ev := [.packet ⟨2, 1, 30⟩ 0, .packet ⟨2, 0, 40⟩ 1, .packet ⟨0, 1, 20⟩ 2, .packet ⟨0, 0, 10⟩ 3]

theorem C135_files_late : pixels tooLate 2 = some [some [40, 41], some [30, 31]] ∧ pixels tooLate 0 = some [some [0, 0], some [0, 0]] := by
  decide +kernel

example : Owned exSetup 0 ∧ Owned exSetup 2 ∧ row exSetup 0 = 0 ∧ row exSetup 2 = 2 ∧ Within exSetup exWriter 2 ∧ ¬ Within exSetup exWriter 3 ∧
    exSetup.geom.bpf ≠ 0 := by
  unfold Owned Within
  decide

end Verif.ManyFiles
