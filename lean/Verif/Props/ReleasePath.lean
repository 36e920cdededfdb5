import Verif.Model.ReleasePath

/-
C160: a buffer that a processor has finished with returns to the receiver thread, whatever the number of its frame and the level of the log.
-/
namespace Verif.ReleasePath

/-- C160: for every number of a frame, which has 32 bits, and every level of the log, each buffer that is handed on and released comes back. -/
def C160_statement : Prop := ∀ log buffer frame, buffer < 2 ^ 31 → frame < 2 ^ 32 → way log buffer frame = some (buffer : Int)

theorem getInt_buffer (b : Nat) (h : b < 2 ^ 31) : getInt (b : Int) = some (b : Int) := by
  simp only [getInt]
  rw [if_pos (by omega)]

theorem getInt_frame (n : Nat) (h : n < 2 ^ 32) : getInt (toInt n) = some (toInt n) := by
  have : -(2 ^ 31) ≤ toInt n ∧ toInt n < 2 ^ 31 := by
    simp only [toInt]; split <;> omega
  simp only [getInt]
  rw [if_pos this]

theorem u64_small (b : Nat) (h : b < 2 ^ 31) : toU64 (b : Int) = b := by
  simp only [toU64]
  exact Int.emod_eq_of_lt (by omega) (by omega)

theorem logged_ok (log : Log) (m : Msg) (h : numbers m = some ()) : logged log m = some () := by
  simp only [logged, h, ite_self]

theorem numbers_ok (m : Msg) (f b : Int) (hf : getInt m.frame = some f) (hb : getInt m.buffer = some b) : numbers m = some () := by
  simp only [numbers, hf, hb, Option.bind_some, Option.map_some]

theorem ready_sent (log : Log) (m : Msg) (h : numbers m = some ()) : forwardReady log m = some m := by
  simp only [forwardReady, logged_ok log m h, Option.map_some]

theorem received (m : Msg) (f b : Int) (hf : getInt m.frame = some f) (hb : getInt m.buffer = some b) (hn : b ≠ -1) : receive m = some (f, toU64 b) := by
  simp only [receive, hb, hf, Option.bind_some, Option.map_some, if_neg hn]

theorem way_of (log : Log) (buffer frame : Nat) (m : Msg) (f : Int × Int) (h1 : forwardReady log (ready buffer frame) = some m) (h2 : receive m = some f) :
    way log buffer frame = (forwardRelease log (release f)).bind push := by
  simp only [way, h1, h2, Option.bind_some]

theorem release_eq (f b : Int) : release (f, b) = ⟨toU64 f, b⟩ := rfl

/-- What the processor sends back. -/
theorem sent_back (log : Log) (buffer frame : Nat) (hb : buffer < 2 ^ 31) (hf : frame < 2 ^ 32) :
    way log buffer frame = (forwardRelease log ⟨toU64 (toInt frame), buffer⟩).bind push := by
  have hn : ((buffer : Nat) : Int) ≠ -1 := by omega
  have h2 := received (ready buffer frame) _ _ (getInt_frame frame hf) (getInt_buffer buffer hb) hn
  rw [u64_small buffer hb] at h2
  rw [way_of log buffer frame _ _ (ready_sent log _ (numbers_ok (ready buffer frame) _ _ (getInt_frame frame hf) (getInt_buffer buffer hb))) h2, release_eq]

theorem push_buffer (f : Int) (b : Nat) (h : b < 2 ^ 31) : push ⟨f, b⟩ = some (b : Int) := by
  simp only [push, getInt_buffer b h, Option.bind_some]
  rw [if_neg (by omega)]

theorem returned (log : Log) (m : Msg) (b : Int) (h : logged log m = some ()) (hp : push m = some b) : (forwardRelease log m).bind push = some b := by
  simp only [forwardRelease, h, Option.map_some, Option.bind_some, hp]

theorem toInt_small (n : Nat) (h : n < 2 ^ 31) : toInt n = n := if_pos h

/-- With a log of level 2 or more, no buffer of a frame with a number from 2^31 on comes back. -/
theorem C160_lost (log : Log) (buffer frame : Nat) (hl : 2 ≤ log.level) (he : log.enabled = true) (hb : buffer < 2 ^ 31) (h1 : 2 ^ 31 ≤ frame) (hf : frame < 2 ^ 32) :
    way log buffer frame = none := by
  have hn : getInt (toU64 (toInt frame)) = none := by
    have ht : toInt frame = frame - 2 ^ 32 := by simp only [toInt]; rw [if_neg (by omega)]
    simp only [getInt, toU64, ht]
    rw [if_neg (by omega)]
  rw [sent_back log buffer frame hb hf]
  simp only [forwardRelease, logged, prints, he, Bool.and_true, numbers, hn]
  rw [if_pos (by simpa using hl)]
  rfl

theorem C160_violated : ¬ C160_statement := by
  intro h
  have h1 := h ⟨2, true⟩ 0 (2 ^ 31) (by decide) (by decide)
  rw [C160_lost ⟨2, true⟩ 0 (2 ^ 31) (by decide) rfl (by decide) (by decide) (by decide)] at h1
  cases h1

/-- The buffer comes back if the log is of a lower level, and for the first 2^31 frames with every log. -/
theorem C160_partial (log : Log) (buffer frame : Nat) (hb : buffer < 2 ^ 31) (hf : frame < 2 ^ 32)
    (h : frame < 2 ^ 31 ∨ log.level < 2 ∨ log.enabled = false) : way log buffer frame = some (buffer : Int) := by
  rw [sent_back log buffer frame hb hf]
  have hl : logged log ⟨toU64 (toInt frame), (buffer : Int)⟩ = some () := by
    rcases h with h | h
    · rw [toInt_small frame h, u64_small frame h]
      exact logged_ok log _ (numbers_ok _ _ _ (getInt_buffer frame h) (getInt_buffer buffer hb))
    · have hp : prints log 2 = false := by
        rcases h with h | h
        · have : ¬ 2 ≤ log.level := by omega
          simp [prints, this]
        · simp [prints, h]
      exact if_neg (by rw [hp]; exact Bool.false_ne_true)
  exact returned log _ _ hl (push_buffer _ buffer hb)

/-- Non-vacuity: a frame with a large number, with and without the log. -/
example : way ⟨1, true⟩ 7 4000000000 = some 7 ∧ way ⟨2, true⟩ 7 4000000000 = none ∧ way ⟨4, true⟩ 7 2147483647 = some 7 := by decide +kernel

end Verif.ReleasePath
