import Verif.Model.Layout
/-!
C127: the pixels of a frame read back from its dataset.
C128: the Blosc filter is told the size of the data.
-/
namespace Verif.Layout

/-! ## Spec -/

/-- The part of an image at some coordinates: an image of dimensions `d :: ds` is `d` images of dimensions `ds`, one after
the other, and one without dimensions is an element. -/
def part {α : Type} (size : Nat) : List Nat → List Nat → List α → List α
  | _ :: ds, i :: xs, img => part size ds xs ((img.drop (i * (vol ds * size))).take (vol ds * size))
  | _, _, img => img

/-- Coordinates inside a box. -/
def Inside (x dims : List Nat) : Prop := x.length = dims.length ∧ ∀ (i a b : Nat), x[i]? = some a → dims[i]? = some b → a < b

/-- The dataset after frames were written to it: some before, this one, and some after it in other slots. -/
def after {α : Type} (edge : Bool) (outer : Nat) (d : Ds α) (before : List (Nat × List α)) (slot : Nat) (img : List α)
    (later : List (Nat × List α)) : Ds α :=
  run edge outer (write edge (run edge outer d before) outer slot img).1 later

/-- The frame of a slot reads back: every element of it that is inside the dataset. -/
def ReadsBack {α : Type} (fill : α) (dims : List Nat) (size outer slot : Nat) (img : List α) (d : Ds α) : Prop :=
  ∀ k x n, k < outer → Inside x dims → d.dims = n :: dims → slot * outer + k < n →
    element fill d ((slot * outer + k) :: x) = some (part size (outer :: dims) (k :: x) img)

/-- C127, full statement: for every dataset that is created, a frame with an image of the size of its chunk of frames that
is written reads back, whatever was written before and whatever is written to other slots later. -/
def C127_statement : Prop :=
  ∀ (edge unlimited : Bool) (d : Def) (outer : Nat) (cs : List Nat) (ds : Ds Nat), d.chunks = outer :: cs →
    create unlimited d = some ds →
    ∀ before slot img later, img.length = outer * vol d.dims * d.size → (∀ f ∈ later, f.1 ≠ slot) →
      (write edge (run edge outer ds before) outer slot img).2 = true →
      ReadsBack 0 d.dims d.size outer slot img (after edge outer ds before slot img later)

/-! ## Positions -/

theorem inside_iff (x dims : List Nat) : inside x dims = true ↔ Inside x dims := by
  induction x generalizing dims with
  | nil =>
    cases dims with
    | nil => simp [inside, Inside]
    | cons d ds => simp [inside, Inside]
  | cons a x ih =>
    cases dims with
    | nil => simp [inside, Inside]
    | cons d ds =>
      simp only [inside, Bool.and_eq_true, decide_eq_true_eq, ih]
      constructor
      · rintro ⟨h1, h2, h3⟩
        refine ⟨by simp [h2], ?_⟩
        intro i
        cases i with
        | zero => simpa using h1
        | succ i => simpa using h3 i
      · rintro ⟨h1, h2⟩
        refine ⟨by simpa using h2 0, by simpa using h1, ?_⟩
        intro i
        simpa using h2 (i + 1)

theorem flat_lt (dims x : List Nat) (h : inside x dims = true) : flat dims x < vol dims := by
  induction x generalizing dims with
  | nil =>
    cases dims with
    | nil => decide
    | cons d ds => cases h
  | cons a x ih =>
    cases dims with
    | nil => cases h
    | cons d ds =>
      simp only [inside, Bool.and_eq_true, decide_eq_true_eq] at h
      have h2 := ih ds h.2
      simp only [flat, vol]
      have h3 : (a + 1) * vol ds ≤ d * vol ds := Nat.mul_le_mul_right _ h.1
      rw [Nat.add_mul] at h3
      omega

/-- The row-major position finds the element. -/
theorem part_eq {α : Type} (size : Nat) (dims x : List Nat) (img : List α) (h : inside x dims = true)
    (hl : img.length = vol dims * size) : part size dims x img = (img.drop (flat dims x * size)).take size := by
  induction x generalizing dims img with
  | nil =>
    cases dims with
    | nil =>
      simp only [vol, Nat.one_mul] at hl
      simp [part, flat, ← hl]
    | cons d ds => cases h
  | cons a x ih =>
    cases dims with
    | nil => cases h
    | cons d ds =>
      simp only [inside, Bool.and_eq_true, decide_eq_true_eq] at h
      have hf := flat_lt ds x h.2
      have h3 : (a + 1) * (vol ds * size) ≤ d * (vol ds * size) := Nat.mul_le_mul_right _ h.1
      rw [Nat.add_mul, Nat.one_mul, ← Nat.mul_assoc d] at h3
      simp only [vol] at hl
      have h4 : (flat ds x + 1) * size ≤ vol ds * size := Nat.mul_le_mul_right _ hf
      rw [Nat.add_mul, Nat.one_mul] at h4
      simp only [part, flat]
      rw [ih ds _ h.2 (by rw [List.length_take, List.length_drop]; omega)]
      rw [List.drop_take, List.drop_drop, List.take_take, Nat.add_mul, Nat.mul_assoc]
      congr 1
      omega

theorem zip_mod (x dims : List Nat) (h : inside x dims = true) : List.zipWith (fun c i => i % c) dims x = x := by
  induction x generalizing dims with
  | nil => cases dims <;> rfl
  | cons a x ih =>
    cases dims with
    | nil => cases h
    | cons d ds =>
      simp only [inside, Bool.and_eq_true, decide_eq_true_eq] at h
      simp only [List.zipWith_cons_cons, ih ds h.2, Nat.mod_eq_of_lt h.1]

theorem zip_div (x dims : List Nat) (h : inside x dims = true) :
    List.zipWith (fun c i => i / c * c) dims x = List.replicate dims.length 0 := by
  induction x generalizing dims with
  | nil =>
    cases dims with
    | nil => rfl
    | cons d ds => cases h
  | cons a x ih =>
    cases dims with
    | nil => cases h
    | cons d ds =>
      simp only [inside, Bool.and_eq_true, decide_eq_true_eq] at h
      simp only [List.zipWith_cons_cons, ih ds h.2, Nat.div_eq_of_lt h.1, Nat.zero_mul, List.length_cons, List.replicate_succ]

/-! ## What writing leaves alone -/

/-- A dataset for frames of these dimensions. -/
structure Of {α : Type} (dims chunk : List Nat) (size : Nat) (u : Bool) (d : Ds α) : Prop where
  dims : ∃ n, d.dims = n :: dims
  chunk : d.chunk = chunk
  size : d.size = size
  unlimited : d.unlimited = u

variable {α : Type} {dims chunk : List Nat} {size : Nat} {u : Bool}

theorem grown_of (d : Ds α) (h : Of dims chunk size u d) (slot outer : Nat) :
    Of dims chunk size u (grown d slot outer) ∧ (grown d slot outer).stored = d.stored := by
  unfold grown
  split
  · obtain ⟨n, hn⟩ := h.dims
    unfold extend
    rw [hn]
    dsimp only
    split
    · exact ⟨⟨⟨_, rfl⟩, h.chunk, h.size, h.unlimited⟩, rfl⟩
    · exact ⟨h, rfl⟩
  · exact ⟨h, rfl⟩

theorem write_of (edge : Bool) (d : Ds α) (h : Of dims chunk size u d) (outer slot : Nat) (img : List α) :
    Of dims chunk size u (write edge d outer slot img).1 ∧
      (write edge d outer slot img).1.stored =
        (if (write edge d outer slot img).2 then [(slot * outer :: List.replicate dims.length 0, img)] else []) ++ d.stored := by
  obtain ⟨hg, hs⟩ := grown_of d h slot outer
  obtain ⟨n, hn⟩ := h.dims
  unfold write store
  split
  · refine ⟨⟨hg.dims, hg.chunk, hg.size, hg.unlimited⟩, ?_⟩
    simp [offsetOf, hn, hs]
  · exact ⟨hg, by simp [hs]⟩

theorem run_cons (edge : Bool) (outer : Nat) (d : Ds α) (f : Nat × List α) (l : List (Nat × List α)) :
    run edge outer d (f :: l) = run edge outer (write edge d outer f.1 f.2).1 l := rfl

theorem run_of (edge : Bool) (outer : Nat) (d : Ds α) (h : Of dims chunk size u d) (l : List (Nat × List α)) :
    Of dims chunk size u (run edge outer d l) := by
  induction l generalizing d with
  | nil => exact h
  | cons f l ih => exact ih _ (write_of edge d h outer f.1 f.2).1

/-- Frames in other slots do not touch the chunk of a slot. -/
theorem run_lookup (edge : Bool) (outer : Nat) (ho : 0 < outer) (d : Ds α) (h : Of dims chunk size u d) (l : List (Nat × List α))
    (slot : Nat) (hl : ∀ f ∈ l, f.1 ≠ slot) :
    (run edge outer d l).stored.lookup (slot * outer :: List.replicate dims.length 0) =
      d.stored.lookup (slot * outer :: List.replicate dims.length 0) := by
  induction l generalizing d with
  | nil => rfl
  | cons f l ih =>
    obtain ⟨hw, hs⟩ := write_of edge d h outer f.1 f.2
    rw [run_cons, ih _ hw (fun g hg => hl g (List.mem_cons_of_mem _ hg)), hs]
    split
    · have hne : (slot * outer :: List.replicate dims.length 0 == f.1 * outer :: List.replicate dims.length 0) = false := by
        rw [beq_eq_false_iff_ne]
        intro e
        injection e with e
        exact hl f List.mem_cons_self (Nat.eq_of_mul_eq_mul_right ho e).symm
      simp only [List.cons_append, List.nil_append, List.lookup_cons, hne]
    · rfl

/-- The chunk of the frame last written to a slot is found. -/
theorem after_lookup (edge : Bool) (outer : Nat) (ho : 0 < outer) (d : Ds α) (h : Of dims chunk size u d)
    (before later : List (Nat × List α)) (slot : Nat) (img : List α) (hl : ∀ f ∈ later, f.1 ≠ slot)
    (hw : (write edge (run edge outer d before) outer slot img).2 = true) :
    Of dims chunk size u (after edge outer d before slot img later) ∧
      (after edge outer d before slot img later).stored.lookup (slot * outer :: List.replicate dims.length 0) = some img := by
  have hb := run_of edge outer d h before
  obtain ⟨h1, h2⟩ := write_of edge _ hb outer slot img
  refine ⟨run_of edge outer _ h1 later, ?_⟩
  unfold after
  rw [run_lookup edge outer ho _ h1 later slot hl, h2, hw]
  simp

/-- With chunks of whole frames, a chunk of the right size reads back. -/
theorem reads_back (fill : α) (outer : Nat) (ho : 0 < outer) (d : Ds α) (h : Of dims (outer :: dims) size u d) (slot : Nat)
    (img : List α) (hl : img.length = outer * vol dims * size)
    (hs : d.stored.lookup (slot * outer :: List.replicate dims.length 0) = some img) :
    ReadsBack fill dims size outer slot img d := by
  intro k x n hk hx hn hr
  have hi := (inside_iff x dims).2 hx
  have hi1 : inside (k :: x) (outer :: dims) = true := by simp [inside, hk, hi]
  have hi2 : inside ((slot * outer + k) :: x) (n :: dims) = true := by simp [inside, hr, hi]
  have hdiv : (slot * outer + k) / outer * outer = slot * outer := by
    rw [Nat.mul_comm slot, Nat.mul_add_div ho, Nat.div_eq_of_lt hk, Nat.add_zero, Nat.mul_comm]
  have hmod : (slot * outer + k) % outer = k := by
    rw [Nat.mul_comm slot, Nat.mul_add_mod, Nat.mod_eq_of_lt hk]
  have hv : img.length = vol (outer :: dims) * size := hl
  unfold element
  rw [hn, if_pos hi2, h.chunk, List.zipWith_cons_cons, List.zipWith_cons_cons, zip_div x dims hi, zip_mod x dims hi, hdiv, hmod, hs]
  dsimp only
  rw [h.size, if_pos hv, part_eq size _ _ img hi1 hv]

/-! ## What is created -/

theorem create_of {unlimited : Bool} {d : Def} {ds : Ds α} {c : Nat} {cs : List Nat} (hc : d.chunks = c :: cs)
    (h : create unlimited d = some ds) :
    Of d.dims ((if unlimited then c else clamp c d.frames) :: cs) d.size unlimited ds ∧ ds.stored = [] ∧ valid d = true ∧
      cs.length = d.dims.length ∧ ds.dims = (if unlimited then 1 else d.frames) :: d.dims ∧
      accepts unlimited ((if unlimited then 1 else d.frames) :: d.dims) ((if unlimited then c else clamp c d.frames) :: cs) d.size = true := by
  unfold create at h
  split at h
  · cases h
  · next hv =>
    rw [hc] at h
    dsimp only at h
    split at h
    · cases h
    · next hl =>
      have hl' : cs.length = d.dims.length := Decidable.byContradiction hl
      cases unlimited with
      | true =>
        rw [if_pos rfl] at h
        split at h
        · next ha =>
          cases h
          exact ⟨⟨⟨_, rfl⟩, rfl, rfl, rfl⟩, rfl, by simpa using hv, hl', rfl, by simpa using ha⟩
        · cases h
      | false =>
        rw [if_neg (by decide)] at h
        split at h
        · next ha =>
          cases h
          exact ⟨⟨⟨_, rfl⟩, rfl, rfl, rfl⟩, rfl, by simpa using hv, hl', rfl, by simpa using ha⟩
        · cases h

/-- What holds: with chunks of whole frames, as configured by default, and not more frames to a chunk than the dataset has,
every frame that is written reads back. -/
theorem C127_partial (edge unlimited : Bool) (fill : α) (d : Def) (outer : Nat) (ds : Ds α) (hc : d.chunks = outer :: d.dims)
    (h : create unlimited d = some ds) (hf : unlimited = true ∨ outer ≤ d.frames) (before : List (Nat × List α)) (slot : Nat)
    (img : List α) (later : List (Nat × List α)) (hl : img.length = outer * vol d.dims * d.size) (hn : ∀ f ∈ later, f.1 ≠ slot)
    (hw : (write edge (run edge outer ds before) outer slot img).2 = true) :
    ReadsBack fill d.dims d.size outer slot img (after edge outer ds before slot img later) := by
  obtain ⟨ho, _, hv, _, _, _⟩ := create_of hc h
  have he : (if unlimited then outer else clamp outer d.frames) = outer := by
    rcases hf with hf | hf
    · rw [if_pos hf]
    · split
      · rfl
      · unfold clamp; rw [if_neg (by omega)]
  rw [he] at ho
  have hpos : 0 < outer := by
    simp only [valid, hc, List.all_cons, Bool.and_eq_true, bne_iff_ne, ne_eq] at hv
    omega
  obtain ⟨h1, h2⟩ := after_lookup edge outer hpos ds ho before later slot img hn hw
  exact reads_back fill outer hpos _ h1 slot img hl h2

/-- And the elements of a slot that nothing is written to read as the fill value. -/
theorem C127_fill (edge unlimited : Bool) (fill : α) (d : Def) (outer : Nat) (ds : Ds α) (hc : d.chunks = outer :: d.dims)
    (h : create unlimited d = some ds) (hf : unlimited = true ∨ outer ≤ d.frames) (l : List (Nat × List α)) (slot : Nat)
    (hn : ∀ f ∈ l, f.1 ≠ slot) (k : Nat) (x : List Nat) (n : Nat) (hk : k < outer) (hx : Inside x d.dims)
    (hd : (run edge outer ds l).dims = n :: d.dims) (hr : slot * outer + k < n) :
    element fill (run edge outer ds l) ((slot * outer + k) :: x) = some (List.replicate d.size fill) := by
  obtain ⟨ho, hs, _, _, _, _⟩ := create_of hc h
  have he : (if unlimited then outer else clamp outer d.frames) = outer := by
    rcases hf with hf | hf
    · rw [if_pos hf]
    · split
      · rfl
      · unfold clamp; rw [if_neg (by omega)]
  rw [he] at ho
  have hpos : 0 < outer := by omega
  have h1 := run_of edge outer ds ho l
  have h2 := run_lookup edge outer hpos ds ho l slot hn
  rw [hs] at h2
  have hi := (inside_iff x d.dims).2 hx
  have hi2 : inside ((slot * outer + k) :: x) (n :: d.dims) = true := by simp [inside, hr, hi]
  have hdiv : (slot * outer + k) / outer * outer = slot * outer := by
    rw [Nat.mul_comm slot, Nat.mul_add_div hpos, Nat.div_eq_of_lt hk, Nat.add_zero, Nat.mul_comm]
  unfold element
  rw [hd, if_pos hi2, h1.chunk, List.zipWith_cons_cons, zip_div x d.dims hi, hdiv, h2, h1.size]
  rfl

/-! ## Where it fails -/

/-- Chunks smaller than an image, which the configuration allows: the bytes of the image are stored as one chunk, and none
of its pixels can be read. -/
theorem C127_violated : ¬ C127_statement := by
  intro h
  have := h false false ⟨[2], [1, 1], 1, 1⟩ 1 [1] ⟨false, [1, 2], [1, 1], 1, []⟩ rfl rfl [] 0 [7, 8] [] rfl (by simp) rfl 0 [0] 1
    (by decide) (by rw [← inside_iff]; rfl) rfl (by decide)
  revert this
  decide

/-- The size of images is not checked: one of any other size than that of the chunk makes its chunk unreadable. -/
theorem C127_size (edge : Bool) (fill : α) (outer : Nat) (ho : 0 < outer) (d : Ds α) (h : Of dims (outer :: dims) size u d)
    (before later : List (Nat × List α)) (slot : Nat) (img : List α) (hl : img.length ≠ outer * vol dims * size)
    (hn : ∀ f ∈ later, f.1 ≠ slot) (hw : (write edge (run edge outer d before) outer slot img).2 = true) (k : Nat) (x : List Nat)
    (hk : k < outer) (hx : Inside x dims) :
    element fill (after edge outer d before slot img later) ((slot * outer + k) :: x) = none := by
  obtain ⟨h1, h2⟩ := after_lookup edge outer ho d h before later slot img hn hw
  obtain ⟨n, hd⟩ := h1.dims
  have hi := (inside_iff x dims).2 hx
  have hdiv : (slot * outer + k) / outer * outer = slot * outer := by
    rw [Nat.mul_comm slot, Nat.mul_add_div ho, Nat.div_eq_of_lt hk, Nat.add_zero, Nat.mul_comm]
  unfold element
  split
  · rw [h1.chunk, List.zipWith_cons_cons, zip_div x dims hi, hdiv, h2]
    dsimp only
    rw [h1.size, if_neg (show ¬ img.length = vol (outer :: dims) * size from hl)]
  · rfl

theorem vol_pos (l : List Nat) (h : ∀ c ∈ l, 0 < c) : 0 < vol l := by
  induction l with
  | nil => decide
  | cons c l ih =>
    exact Nat.mul_pos (h c List.mem_cons_self) (ih fun a ha => h a (List.mem_cons_of_mem _ ha))

theorem vol_le (cs ds : List Nat) (h : fitsIn cs ds = true) : vol cs ≤ vol ds := by
  induction cs generalizing ds with
  | nil => cases ds with
    | nil => exact Nat.le_refl _
    | cons d ds => cases h
  | cons c cs ih => cases ds with
    | nil => cases h
    | cons d ds =>
      simp only [fitsIn, Bool.and_eq_true, decide_eq_true_eq] at h
      exact Nat.mul_le_mul h.1 (ih ds h.2)

theorem vol_eq (cs ds : List Nat) (h : fitsIn cs ds = true) (hp : ∀ d ∈ ds, 0 < d) (he : vol cs = vol ds) : cs = ds := by
  induction cs generalizing ds with
  | nil => cases ds with
    | nil => rfl
    | cons d ds => cases h
  | cons c cs ih => cases ds with
    | nil => cases h
    | cons d ds =>
      simp only [fitsIn, Bool.and_eq_true, decide_eq_true_eq] at h
      have hl := vol_le cs ds h.2
      have hd : 0 < vol ds := vol_pos ds fun a ha => hp a (List.mem_cons_of_mem _ ha)
      have hd0 := hp d List.mem_cons_self
      simp only [vol] at he
      have h1 : c * vol cs ≤ d * vol cs := Nat.mul_le_mul_right _ h.1
      have h2 : d * vol cs ≤ d * vol ds := Nat.mul_le_mul_left _ hl
      have h3 : vol cs = vol ds := Nat.eq_of_mul_eq_mul_left hd0 (by omega)
      rw [h3] at he
      rw [Nat.eq_of_mul_eq_mul_right hd he, ih ds h.2 (fun a ha => hp a (List.mem_cons_of_mem _ ha)) h3]

theorem inside_zero (ds : List Nat) (hp : ∀ d ∈ ds, 0 < d) : inside (List.replicate ds.length 0) ds = true := by
  induction ds with
  | nil => rfl
  | cons d ds ih =>
    rw [List.length_cons, List.replicate_succ]
    simp only [inside, Bool.and_eq_true, decide_eq_true_eq]
    exact ⟨hp d List.mem_cons_self, ih fun a ha => hp a (List.mem_cons_of_mem _ ha)⟩

theorem write_ge (edge : Bool) (d : Ds α) (outer slot : Nat) (img : List α) {n : Nat} {dims : List Nat} (hn : d.dims = n :: dims) :
    ∃ m, (write edge d outer slot img).1.dims = m :: dims ∧ n ≤ m := by
  have hg : ∃ m, (grown d slot outer).dims = m :: dims ∧ n ≤ m := by
    unfold grown
    split
    · unfold extend
      rw [hn]
      dsimp only
      split
      · exact ⟨_, rfl, by omega⟩
      · exact ⟨n, hn, Nat.le_refl _⟩
    · exact ⟨n, hn, Nat.le_refl _⟩
  unfold write store
  split
  · exact hg
  · exact hg

theorem zip_zero (cs : List Nat) (n : Nat) (h : cs.length = n) :
    List.zipWith (fun c i => i / c * c) cs (List.replicate n 0) = List.replicate n 0 := by
  induction cs generalizing n with
  | nil => subst h; rfl
  | cons c cs ih =>
    subst h
    rw [List.length_cons, List.replicate_succ, List.zipWith_cons_cons, ih _ rfl, Nat.zero_div, Nat.zero_mul]

/-- The conditions of `C127_partial` are needed: if even one image of the right size, the first one written, reads back,
then the chunks are whole frames, and not more frames than the dataset has. -/
theorem C127_needed (edge unlimited : Bool) (fill : α) (d : Def) (outer : Nat) (cs : List Nat) (ds : Ds α)
    (hc : d.chunks = outer :: cs) (h : create unlimited d = some ds) (hs : 0 < d.size) (img : List α)
    (hl : img.length = outer * vol d.dims * d.size) (hw : (write edge ds outer 0 img).2 = true)
    (hr : ReadsBack fill d.dims d.size outer 0 img (write edge ds outer 0 img).1) :
    cs = d.dims ∧ (unlimited = true ∨ outer ≤ d.frames) := by
  obtain ⟨ho, _, hv, hlen, hdims, ha⟩ := create_of hc h
  simp only [valid, hc, List.all_cons, Bool.and_eq_true, bne_iff_ne, ne_eq, List.all_eq_true] at hv
  obtain ⟨hv1, hv2, _⟩ := hv
  have hp : ∀ n ∈ d.dims, 0 < n := fun n hn => Nat.pos_of_ne_zero (hv1 n hn)
  obtain ⟨h1, h2⟩ := after_lookup edge outer (Nat.pos_of_ne_zero hv2) ds ho [] [] 0 img (by simp) hw
  change Of d.dims _ d.size unlimited (write edge ds outer 0 img).1 at h1
  change (write edge ds outer 0 img).1.stored.lookup _ = _ at h2
  obtain ⟨n, hn⟩ := h1.dims
  have hn0 : 0 < n := by
    obtain ⟨m, hm, hle⟩ := write_ge edge ds outer 0 img hdims
    rw [hm] at hn
    injection hn with hn
    simp only [accepts, Bool.and_eq_true, List.all_cons, decide_eq_true_eq] at ha
    cases unlimited with
    | true => simp only [if_true] at hle; omega
    | false =>
      simp only [Bool.false_eq_true, if_false, fitsIn, Bool.and_eq_true, decide_eq_true_eq] at hle ha
      omega
  generalize hc0 : (if unlimited = true then outer else clamp outer d.frames) = c0 at h1 ha
  have hz := inside_zero d.dims hp
  have := hr 0 (List.replicate d.dims.length 0) n (Nat.pos_of_ne_zero hv2) ((inside_iff _ _).1 hz) hn (by omega)
  unfold element at this
  rw [hn, if_pos (by simp only [inside, Bool.and_eq_true, decide_eq_true_eq]; exact ⟨by omega, hz⟩), h1.chunk,
    List.zipWith_cons_cons, zip_zero cs _ hlen] at this
  simp only [Nat.zero_mul, Nat.zero_add, Nat.zero_div] at this h2
  rw [h2] at this
  dsimp only at this
  split at this
  · next he =>
    rw [hl, h1.size] at he
    have he := Nat.eq_of_mul_eq_mul_right hs he
    simp only [vol] at he
    simp only [accepts, Bool.and_eq_true] at ha
    have hd := vol_pos d.dims hp
    cases unlimited with
    | true =>
      simp only [if_true] at hc0
      subst hc0
      simp only [if_true, List.tail_cons] at ha
      have := Nat.eq_of_mul_eq_mul_left (Nat.pos_of_ne_zero hv2) he
      exact ⟨vol_eq cs d.dims ha.2 hp this.symm, Or.inl rfl⟩
    | false =>
      simp only [Bool.false_eq_true, if_false] at hc0
      subst hc0
      simp only [Bool.false_eq_true, if_false, fitsIn, Bool.and_eq_true, decide_eq_true_eq] at ha
      have hle := vol_le cs d.dims ha.2.2
      have hcl : clamp outer d.frames ≤ outer := by unfold clamp; split <;> omega
      have e1 : clamp outer d.frames * vol cs ≤ outer * vol cs := Nat.mul_le_mul_right _ hcl
      have e2 : outer * vol cs ≤ outer * vol d.dims := Nat.mul_le_mul_left _ hle
      have e3 : vol cs = vol d.dims := Nat.eq_of_mul_eq_mul_left (Nat.pos_of_ne_zero hv2) (by omega)
      rw [e3] at he
      have e4 := Nat.eq_of_mul_eq_mul_right hd he
      refine ⟨vol_eq cs d.dims ha.2.2 hp e3, Or.inr ?_⟩
      unfold clamp at e4
      split at e4 <;> omega
  · cases this

/-! ## Rows inside the dataset -/

theorem write_rows (edge : Bool) (d : Ds α) (h : Of dims chunk size true d) (outer slot : Nat) (img : List α) :
    ∃ n m, d.dims = n :: dims ∧ (write edge d outer slot img).1.dims = m :: dims ∧ n ≤ m ∧ (slot + 1) * outer ≤ m := by
  obtain ⟨n, hn⟩ := h.dims
  refine ⟨n, max n ((slot + 1) * outer), hn, ?_, by omega, by omega⟩
  have hg : (grown d slot outer).dims = max n ((slot + 1) * outer) :: dims := by
    unfold grown
    rw [if_pos h.unlimited]
    unfold extend
    rw [hn]
    dsimp only
    split
    · show (slot + 1) * outer :: dims = _
      congr 1
      omega
    · rw [hn]
      congr 1
      omega
  unfold write store
  split
  · exact hg
  · exact hg

theorem takes_zero (edge : Bool) (l : List Nat) (hp : ∀ c ∈ l, 0 < c) :
    takes edge (List.replicate l.length 0) l l = true := by
  induction l with
  | nil => rfl
  | cons c l ih =>
    rw [List.length_cons, List.replicate_succ]
    simp only [takes, Bool.and_eq_true, Bool.or_eq_true, decide_eq_true_eq]
    exact ⟨⟨Or.inl (hp c List.mem_cons_self), Nat.zero_mod _⟩, ih fun a ha => hp a (List.mem_cons_of_mem _ ha)⟩

/-- In a dataset of unlimited length every row of a frame is inside after it was written, and frames at the slots of
chunks of whole frames are taken. -/
theorem C127_unlimited (edge : Bool) (outer : Nat) (ho : 0 < outer) (d : Ds α) (h : Of dims (outer :: dims) size true d)
    (hp : ∀ c ∈ dims, 0 < c) (before later : List (Nat × List α)) (slot : Nat) (img : List α) :
    (write edge (run edge outer d before) outer slot img).2 = true ∧
      ∃ n, (after edge outer d before slot img later).dims = n :: dims ∧ (slot + 1) * outer ≤ n := by
  have hb := run_of edge outer d h before
  constructor
  · obtain ⟨n, m, _, hm, _, hle⟩ := write_rows edge _ hb outer slot img
    obtain ⟨hg, _⟩ := grown_of _ hb slot outer
    have hgd : (grown (run edge outer d before) slot outer).dims = m :: dims := by
      unfold write store at hm
      split at hm <;> exact hm
    obtain ⟨n', hn'⟩ := hb.dims
    unfold write store offsetOf
    rw [hgd, hg.chunk, hn', if_pos]
    rw [List.length_cons, Nat.add_sub_cancel]
    simp only [takes, Bool.and_eq_true, Bool.or_eq_true, decide_eq_true_eq]
    refine ⟨⟨Or.inl ?_, Nat.mul_mod_left _ _⟩, ?_⟩
    · rw [Nat.add_mul, Nat.one_mul] at hle
      omega
    · exact takes_zero edge dims hp
  · obtain ⟨h1, _⟩ := write_of edge _ hb outer slot img
    obtain ⟨_, m, _, hm, _, hle⟩ := write_rows edge _ hb outer slot img
    have hr : ∀ (l : List (Nat × List α)) (w : Ds α) (m : Nat), w.dims = m :: dims →
        ∃ n, (run edge outer w l).dims = n :: dims ∧ m ≤ n := by
      intro l
      induction l with
      | nil => exact fun w m hm => ⟨m, hm, Nat.le_refl _⟩
      | cons f l ih =>
        intro w m hm
        obtain ⟨m', hm', hle'⟩ := write_ge edge w outer f.1 f.2 hm
        obtain ⟨n, hn, hle2⟩ := ih _ m' hm'
        exact ⟨n, hn, by omega⟩
    obtain ⟨n, hn, hle'⟩ := hr later _ m hm
    exact ⟨n, hn, by omega⟩

/-- In a dataset of fixed length that is a whole number of chunks, every row of a frame that is taken inside the extent is
inside. -/
theorem C127_fixed (outer : Nat) (d : Ds α) (h : Of dims (outer :: dims) size false d) (n slot : Nat) (img : List α)
    (hn : d.dims = n * outer :: dims) (hw : (write false d outer slot img).2 = true) : slot < n := by
  unfold write store at hw
  split at hw
  · next ht =>
    have hg : grown d slot outer = d := by
      unfold grown
      rw [if_neg (by rw [h.unlimited]; decide)]
    rw [hg, hn, h.chunk] at ht
    simp only [offsetOf, takes, Bool.and_eq_true, Bool.or_eq_true, decide_eq_true_eq, Bool.false_and, Bool.false_eq_true,
      or_false] at ht
    exact Nat.lt_of_mul_lt_mul_right ht.1.1
  · cases hw

/-- Non-vacuity: two frames of 2 by 2 pixels to a chunk, elements of two bytes; the second chunk is written, then the first. -/
def exDef : Def := ⟨[2, 2], [2, 2, 2], 4, 2⟩
def exDs : Ds Nat := ⟨false, [4, 2, 2], [2, 2, 2], 2, []⟩
def exImg (n : Nat) : List Nat := (List.range 16).map (· + n)
example : create false exDef = some exDs := rfl
example : (write false (run false 2 exDs []) 2 1 (exImg 100)).2 = true ∧
    element 0 (after false 2 exDs [] 1 (exImg 100) [(0, exImg 0)]) [3, 1, 0] = some [112, 113] ∧
    part 2 [2, 2, 2] [1, 1, 0] (exImg 100) = [112, 113] := by decide
example : element 9 (run false 2 exDs [(0, exImg 0)]) [3, 1, 0] = some [9, 9] := by decide

/-! ## Blosc parameters -/

/-- C128, full statement: the size given to the Blosc filter of a dataset that is created is that of the data of a chunk. -/
def C128_statement : Prop :=
  ∀ (unlimited : Bool) (d : Def) (ds : Ds Nat) (format level shuffle compressor : Nat), create unlimited d = some ds →
    (bloscParams d format level shuffle compressor)[3]? = some (vol ds.chunk * ds.size)

/-- Two frames to a chunk: the size is that of one. -/
theorem C128_violated : ¬ C128_statement := by
  intro h
  have := h true ⟨[3], [2, 3], 0, 2⟩ ⟨true, [1, 3], [2, 3], 2, []⟩ 2 1 1 1 rfl
  revert this
  decide

theorem pixels_mod (dims : List Nat) (p : Nat) : dims.foldl (fun p n => p * n % 2 ^ 32) (p % 2 ^ 32) = p * vol dims % 2 ^ 32 := by
  induction dims generalizing p with
  | nil => simp [vol]
  | cons n l ih =>
    rw [List.foldl_cons, Nat.mod_mul_mod, ih (p * n), vol, Nat.mul_assoc]

/-- The size given is that of one frame, in 32 bits. -/
theorem C128_value (d : Def) (format level shuffle compressor : Nat) :
    (bloscParams d format level shuffle compressor)[3]? = some (vol d.dims * d.size % 2 ^ 32) := by
  have e : pixels d.dims = vol d.dims % 2 ^ 32 := by
    have := pixels_mod d.dims 1
    rw [Nat.one_mul] at this
    exact this
  show some (pixels d.dims * d.size % 2 ^ 32) = _
  rw [e, Nat.mod_mul_mod]

/-- What holds: it is the size of a chunk exactly if a chunk is one whole frame. -/
theorem C128_partial (unlimited : Bool) (d : Def) (c : Nat) (ds : Ds α) (hc : d.chunks = c :: d.dims)
    (h : create unlimited d = some ds) (hs : 0 < d.size) (format level shuffle compressor : Nat) :
    (bloscParams d format level shuffle compressor)[3]? = some (vol ds.chunk * ds.size) ↔
      ds.chunk = 1 :: d.dims := by
  obtain ⟨ho, _, hv, _, _, ha⟩ := create_of hc h
  rw [C128_value, ho.size, ho.chunk]
  generalize (if unlimited = true then c else clamp c d.frames) = c0 at ha
  simp only [accepts, Bool.and_eq_true, List.all_cons, decide_eq_true_eq] at ha
  obtain ⟨⟨⟨_, ⟨h0, _⟩, _⟩, hb⟩, _⟩ := ha
  have hv' : ∀ n ∈ d.dims, 0 < n := by
    simp only [valid, Bool.and_eq_true, List.all_eq_true, bne_iff_ne] at hv
    exact fun n hn => Nat.pos_of_ne_zero (hv.1 n hn)
  have hp : 0 < vol d.dims * d.size := Nat.mul_pos (vol_pos _ hv') hs
  simp only [vol, Nat.mul_assoc] at hb ⊢
  have h1 : 1 * (vol d.dims * d.size) ≤ c0 * (vol d.dims * d.size) := Nat.mul_le_mul_right _ h0
  rw [Nat.mod_eq_of_lt (by omega)]
  constructor
  · intro e
    injection e with e
    have : 1 * (vol d.dims * d.size) = c0 * (vol d.dims * d.size) := by omega
    rw [Nat.eq_of_mul_eq_mul_right hp this]
  · intro e
    injection e with e
    rw [e, Nat.one_mul]

/-- Non-vacuity: a dataset of single frames. -/
example : create (α := Nat) true ⟨[3, 2], [1, 3, 2], 0, 2⟩ = some ⟨true, [1, 3, 2], [1, 3, 2], 2, []⟩ ∧
    bloscParams ⟨[3, 2], [1, 3, 2], 0, 2⟩ 2 9 1 0 = [2, 2, 2, 12, 9, 1, 0] := ⟨rfl, rfl⟩

end Verif.Layout
