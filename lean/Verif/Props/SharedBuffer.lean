import Verif.Model.SharedBuffer
/-! Property C30: shared buffers do not overlap. -/
namespace Verif.SharedBuffer

namespace Spec

/-- What happens to one name. Every process keeps its handles. -/
inductive Op
  | create (id mem size : Nat)
  | attach
deriving DecidableEq, Repr

structure World where
  region : Option Region := none
  open_ : List Handle := []
deriving DecidableEq, Repr

def step (w : World) : Op → World
  | .create id mem size =>
    let r := create w.region id mem size
    { region := some r.1, open_ := w.open_ ++ r.2.toList }
  | .attach => { w with open_ := w.open_ ++ (attach w.region).toList }

def after (w : World) (ops : List Op) : World := ops.foldl step w

/-- The bytes of buffer `b`. -/
def Byte (r : Region) (b : Int) (x : Nat) : Prop := ∃ a, address r b = some a ∧ a ≤ x ∧ x < a + r.hdr.size

/-- Buffer numbers as passed by the callers. -/
def Index (b : Int) : Prop := 0 ≤ b ∧ b < 2147483648

/-- All buffers of a handle are usable: after the header, inside the mapping and the object, and disjoint;
other indices are refused. -/
structure Sound (r : Region) (h : Handle) : Prop where
  inside : ∀ b x, Byte r b x → headerSize ≤ x ∧ x < h.mapped ∧ x < r.bytes
  disjoint : ∀ b c x, Index b → Index c → Byte r b x → Byte r c x → b = c
  refused : ∀ b, Index b → ((address r b).isSome ↔ b < r.hdr.num)

end Spec
open Spec

theorem index_mod {b : Int} (h : Index b) : ((b % 4294967296).toNat : Int) = b := by
  obtain ⟨h1, h2⟩ := h
  rw [Int.emod_eq_of_lt h1 (by omega)]
  omega

/-- If the header describes buffers that fit, a handle is sound. -/
theorem sound_of_fit (r : Region) (h : Handle) (hm : headerSize + r.hdr.num * r.hdr.size ≤ h.mapped)
    (hb : headerSize + r.hdr.num * r.hdr.size ≤ r.bytes) : Sound r h := by
  refine ⟨?_, ?_, ?_⟩
  · rintro b x ⟨a, ha, h1, h2⟩
    unfold address at ha
    simp only at ha
    split at ha
    · cases ha
    · rename_i hlt
      cases ha
      have hle : (b % 4294967296).toNat + 1 ≤ r.hdr.num := by omega
      have := Nat.mul_le_mul_right r.hdr.size hle
      rw [Nat.add_mul, Nat.one_mul] at this
      omega
  · rintro b c x hb' hc' ⟨a, ha, h1, h2⟩ ⟨a', ha', h1', h2'⟩
    have eb := index_mod hb'
    have ec := index_mod hc'
    unfold address at ha ha'
    simp only at ha ha'
    generalize (b % 4294967296).toNat = m at *
    generalize (c % 4294967296).toNat = n at *
    split at ha
    · cases ha
    · split at ha'
      · cases ha'
      · cases ha; cases ha'
        rw [← eb, ← ec]
        congr 1
        rcases Nat.lt_trichotomy m n with hlt | heq | hlt
        · have := Nat.mul_le_mul_right r.hdr.size (show m + 1 ≤ n from hlt)
          rw [Nat.add_mul, Nat.one_mul] at this
          omega
        · exact heq
        · have := Nat.mul_le_mul_right r.hdr.size (show n + 1 ≤ m from hlt)
          rw [Nat.add_mul, Nat.one_mul] at this
          omega
  · intro b hb'
    have eb := index_mod hb'
    unfold address
    simp only
    generalize (b % 4294967296).toNat = m at *
    split
    · simp; omega
    · simp; omega

theorem total_small {mem : Nat} (h : headerSize + mem < 2 ^ 64) : total mem = headerSize + mem := Nat.mod_eq_of_lt h

theorem fill_some (r : Region) (id mem size : Nat) (h : Handle) (hf : (fill r id mem size).2 = some h) :
    (fill r id mem size).1.hdr = ⟨id, mem / size, size⟩ ∧ 0 < mem / size ∧
    (fill r id mem size).1.bytes = r.bytes ∧ h.mapped = r.bytes ∧ 0 < r.bytes := by
  unfold fill at hf ⊢
  by_cases hb : r.bytes = 0
  · rw [if_pos hb] at hf; cases hf
  · rw [if_neg hb] at hf ⊢
    by_cases hn : mem / size = 0
    · rw [if_pos hn] at hf; cases hf
    · rw [if_neg hn] at hf ⊢
      cases hf
      exact ⟨rfl, Nat.pos_of_ne_zero hn, rfl, rfl, Nat.pos_of_ne_zero hb⟩

theorem fill_isSome (r : Region) (id mem size : Nat) (hs : 0 < size) :
    (fill r id mem size).2.isSome ↔ 0 < r.bytes ∧ size ≤ mem := by
  unfold fill
  by_cases hb : r.bytes = 0
  · rw [if_pos hb]; simp; omega
  · rw [if_neg hb]
    by_cases hn : mem / size = 0
    · rw [if_pos hn]
      have : mem < size := by
        rcases Nat.lt_or_ge mem size with hl | hl
        · exact hl
        · have := Nat.div_pos hl hs; omega
      simp; omega
    · rw [if_neg hn]
      have : size ≤ mem := by
        rcases Nat.lt_or_ge mem size with hl | hl
        · exact absurd (Nat.div_eq_of_lt hl) hn
        · exact hl
      simp; omega

theorem create_eq (r : Option Region) (id mem size : Nat) (hs : 0 < size) (ht : total mem < 2 ^ 63) :
    create r id mem size = fill (truncate (r.getD {}) (total mem)) id mem size := by
  unfold create
  simp only
  rw [if_neg (by omega), if_neg (by omega)]

theorem create_pos (r : Option Region) (id mem size : Nat) (h : Handle) (hc : (create r id mem size).2 = some h) :
    0 < size ∧ total mem < 2 ^ 63 := by
  unfold create at hc
  simp only at hc
  by_cases hs : size = 0
  · rw [if_pos hs] at hc; cases hc
  · rw [if_neg hs] at hc
    by_cases ht : total mem ≥ 2 ^ 63
    · rw [if_pos ht] at hc; cases hc
    · exact ⟨by omega, by omega⟩

theorem create_fit (r : Option Region) (id mem size : Nat) (h : Handle) (hw : headerSize + mem < 2 ^ 64)
    (hc : (create r id mem size).2 = some h) :
    (create r id mem size).1.hdr = ⟨id, mem / size, size⟩ ∧ 0 < mem / size ∧ 0 < size ∧
    (create r id mem size).1.bytes = headerSize + mem ∧ h.mapped = headerSize + mem := by
  obtain ⟨hs, ht⟩ := create_pos r id mem size h hc
  rw [create_eq r id mem size hs ht] at hc ⊢
  obtain ⟨h1, h2, h3, h4, _⟩ := fill_some _ id mem size h hc
  have hb : (truncate (r.getD {}) (total mem)).bytes = headerSize + mem := total_small hw
  exact ⟨h1, h2, hs, by rw [h3, hb], by rw [h4, hb]⟩

/-- C30: whatever memory and buffer sizes are asked for and whatever was there before, a manager that is created
has sound buffers, as many as fit, of the size asked for. Missing: sizes whose sum with the header is 2^64 or more
(`C30_size_violated`). -/
theorem C30_created_partial (r : Option Region) (id mem size : Nat) (h : Handle) (hw : headerSize + mem < 2 ^ 64)
    (hc : (create r id mem size).2 = some h) :
    Sound (create r id mem size).1 h ∧ (create r id mem size).1.hdr.size = size ∧
    (create r id mem size).1.hdr.num * size ≤ mem ∧ mem < ((create r id mem size).1.hdr.num + 1) * size ∧
    0 < (create r id mem size).1.hdr.num := by
  obtain ⟨h1, h2, h3, h4, h5⟩ := create_fit r id mem size h hw hc
  have hdm := Nat.div_mul_le_self mem size
  refine ⟨sound_of_fit _ _ (by rw [h1, h5]; simp only; omega) (by rw [h1, h4]; simp only; omega), by rw [h1],
    by rw [h1]; exact hdm, ?_, by rw [h1]; exact h2⟩
  rw [h1]
  simp only
  have := Nat.div_add_mod mem size
  have h6 := Nat.mod_lt mem h3
  rw [Nat.add_mul, Nat.one_mul, Nat.mul_comm (mem / size)]
  omega

/-- C30: it is created exactly if the buffer size is not zero and at most the memory size, and the sum of the memory size and
the header, modulo 2^64, is a positive `off_t`. -/
theorem C30_created_iff (r : Option Region) (id mem size : Nat) :
    (create r id mem size).2.isSome ↔
      0 < size ∧ size ≤ mem ∧ 0 < (mem + 24) % 18446744073709551616 ∧ (mem + 24) % 18446744073709551616 < 9223372036854775808 := by
  have ht : (mem + 24) % 18446744073709551616 = total mem := by
    unfold total headerSize
    rw [Nat.add_comm]
  rw [ht]
  rcases Nat.eq_zero_or_pos size with hs | hs
  · unfold create
    simp only
    rw [if_pos hs]; simp; omega
  · rcases Nat.lt_or_ge (total mem) (2 ^ 63) with hl | hl
    · rw [create_eq r id mem size hs hl, fill_isSome _ id mem size hs]
      show 0 < total mem ∧ _ ↔ _
      omega
    · unfold create
      simp only
      rw [if_neg (by omega), if_pos hl]; simp; omega

/-- Every memory size that wraps to a positive number is accepted, with buffers of any size, all of which are outside of the mapping. -/
theorem C30_size_violated (r : Option Region) (id mem size : Nat) (hm : 18446744073709551592 < mem) (hm' : mem < 18446744073709551616)
    (hs : 0 < size) (hs' : size ≤ mem) :
    ∃ h, (create r id mem size).2 = some h ∧ ¬ Sound (create r id mem size).1 h ∧
      ∀ b x, Byte (create r id mem size).1 b x → h.mapped ≤ x := by
  have ht : total mem = mem - 18446744073709551592 := by
    unfold total headerSize
    omega
  have hl : total mem < 2 ^ 63 := by omega
  obtain ⟨h, hc⟩ := Option.isSome_iff_exists.1 ((fill_isSome (truncate (r.getD {}) (total mem)) id mem size hs).2
    ⟨show 0 < total mem by omega, hs'⟩)
  rw [create_eq r id mem size hs hl]
  obtain ⟨h1, h2, h3, h4, _⟩ := fill_some _ id mem size h hc
  have hmap : h.mapped < 24 := by
    rw [h4]
    show total mem < 24
    omega
  have hall : ∀ b x, Byte (fill (truncate (r.getD {}) (total mem)) id mem size).1 b x → 24 ≤ x := by
    rintro b x ⟨a, ha, hx, _⟩
    unfold address at ha
    simp only at ha
    split at ha
    · cases ha
    · cases ha
      have : headerSize = 24 := rfl
      omega
  refine ⟨h, hc, fun hso => ?_, fun b x hb => Nat.le_trans (Nat.le_of_lt hmap) (hall b x hb)⟩
  have hb : Byte (fill (truncate (r.getD {}) (total mem)) id mem size).1 0 24 := by
    refine ⟨24, ?_, Nat.le_refl _, by rw [h1]; simp only; omega⟩
    unfold address
    simp only
    rw [if_neg (by rw [h1]; simp only [Int.zero_emod, Int.toNat_zero]; omega)]
    simp [headerSize]
  have := (hso.inside 0 24 hb).2.1
  omega

example : create none 7 18446744073709551600 1000 = (⟨8, ⟨7, 18446744073709551, 1000⟩⟩, some ⟨8⟩) := by decide +kernel

/-- C30, full statement: in every history of one name every open manager has sound buffers. -/
def C30_statement : Prop :=
  ∀ (ops : List Op) (r : Region), (after {} ops).region = some r → ∀ h ∈ (after {} ops).open_, Sound r h

/-- C30, proved part: one creation, and any number of managers attached after it. Missing: creating the same name
again while managers are open (`C30_violated`), and sizes of 2^63 - 24 or more. -/
theorem C30_partial (id mem size n : Nat) (r : Region) (hs : 0 < size) (hm : size ≤ mem) (hw : mem < 9223372036854775784)
    (hr : (after {} (.create id mem size :: List.replicate n .attach)).region = some r) :
    (after {} (.create id mem size :: List.replicate n .attach)).open_.length = n + 1 ∧
    ∀ h ∈ (after {} (.create id mem size :: List.replicate n .attach)).open_, Sound r h := by
  obtain ⟨h0, hc⟩ := Option.isSome_iff_exists.1 ((C30_created_iff none id mem size).2 ⟨hs, hm, by omega⟩)
  obtain ⟨h1, h2, h3, h4, h5⟩ := create_fit none id mem size h0 (by have : headerSize = 24 := rfl; omega) hc
  generalize hg : (create none id mem size).1 = g at *
  have main : ∀ (n : Nat) (w : World), w.region = some g → (∀ h ∈ w.open_, h.mapped = headerSize + mem) →
      (after w (List.replicate n .attach)).region = some g ∧
      (after w (List.replicate n .attach)).open_.length = w.open_.length + n ∧
      ∀ h ∈ (after w (List.replicate n .attach)).open_, h.mapped = headerSize + mem := by
    intro n
    induction n with
    | zero => intro w hw hh; exact ⟨hw, rfl, hh⟩
    | succ n ih =>
      intro w hw hh
      have hat : attach w.region = some ⟨headerSize + mem⟩ := by
        rw [hw]
        simp only [attach]
        rw [if_neg (by rw [h4]; simp [headerSize]), h4]
      have hst : step w .attach = { w with open_ := w.open_ ++ [⟨headerSize + mem⟩] } := by
        simp only [step, hat, Option.toList_some]
      rw [List.replicate_succ]
      rw [show after w (Op.attach :: List.replicate n .attach) = after (step w .attach) (List.replicate n .attach)
        from rfl, hst]
      obtain ⟨a, b, c⟩ := ih { w with open_ := w.open_ ++ [⟨headerSize + mem⟩] } hw (by
        intro h hm
        rcases List.mem_append.1 hm with hm | hm
        · exact hh h hm
        · rw [List.mem_singleton.1 hm])
      exact ⟨a, by rw [b]; simp only [List.length_append, List.length_singleton]; omega, c⟩
  have hfirst : step {} (.create id mem size) = { region := some g, open_ := [h0] } := by
    simp only [step, hg, hc, Option.toList_some, List.nil_append]
  have he : after {} (.create id mem size :: List.replicate n .attach) =
      after { region := some g, open_ := [h0] } (List.replicate n .attach) := by
    show after (step {} (.create id mem size)) _ = _
    rw [hfirst]
  rw [he] at hr ⊢
  obtain ⟨a, b, c⟩ := main n { region := some g, open_ := [h0] } rfl (by
    intro h hm; rw [List.mem_singleton.1 hm]; exact h5)
  rw [a] at hr
  cases hr
  have hdm := Nat.div_mul_le_self mem size
  refine ⟨by rw [b]; simp only [List.length_singleton]; omega, fun h hm => ?_⟩
  exact sound_of_fit _ _ (by rw [h1, c h hm]; simp only; omega) (by rw [h1, h4]; simp only; omega)

/-- C30 is false of the code: a second manager of the same name, with more memory, rewrites the header that a
process attached before it uses: its buffers are outside its mapping. -/
theorem C30_violated : ¬ C30_statement := by
  intro h
  have h1 := h [.create 0 10 10, .attach, .create 1 100 10] ⟨124, ⟨1, 10, 10⟩⟩ (by decide +kernel) ⟨34⟩ (by decide +kernel)
  have := h1.inside 1 34 ⟨34, by decide +kernel, by omega, by decide +kernel⟩
  exact absurd this.2.1 (by decide)

/-- Even a creation that is refused shrinks the memory under the managers that use it: their buffers are
outside the object. -/
theorem C30_violated_refused :
    after {} [.create 0 100 10, .attach, .create 1 5 10] =
      { region := some ⟨29, ⟨0, 10, 10⟩⟩, open_ := [⟨124⟩, ⟨124⟩] } ∧ ¬ Sound ⟨29, ⟨0, 10, 10⟩⟩ ⟨124⟩ := by
  refine ⟨by decide +kernel, fun h => ?_⟩
  have := h.inside 1 34 ⟨34, by decide +kernel, by omega, by decide +kernel⟩
  exact absurd this.2.2 (by decide)

/-- Negative indices are refused as well, while there are at most 2^31 buffers. -/
theorem C30_negative_refused (r : Region) (b : Int) (hb : -2147483648 ≤ b ∧ b < 0) (hn : r.hdr.num ≤ 2147483648) :
    address r b = none := by
  unfold address
  simp only
  rw [if_pos]
  have : b % 4294967296 = b + 4294967296 := by omega
  rw [this]
  omega

/-- Non-vacuity: 3 buffers of 10 bytes in 35. -/
example : (after {} [.create 0 35 10, .attach]) = { region := some ⟨59, ⟨0, 3, 10⟩⟩, open_ := [⟨59⟩, ⟨59⟩] } ∧
    address ⟨59, ⟨0, 3, 10⟩⟩ 2 = some 44 ∧ address ⟨59, ⟨0, 3, 10⟩⟩ 3 = none ∧ address ⟨59, ⟨0, 3, 10⟩⟩ (-1) = none := by
  decide +kernel

end Verif.SharedBuffer
