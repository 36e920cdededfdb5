import Verif.Props.EndToEnd
import Verif.Props.Simulator
/-! Property C135 for the simulator: its image is in the file. -/
namespace Verif.EndToEnd
open Verif.Decoder.Spec (Ev Distinct Whole packetsOf)
open Verif.Simulator (create image image_length GoodFrame createFrom_spec parts_pos mem_datagrams datagrams_distinct C44_pattern)
open Verif.Simulator.Spec (parts part datagrams)
open Spec

/-- The file after `n` frames of the simulator, whose datagrams came in any order: pixel `i` of every frame of this process is
the number `i` cut to 16 bits. `code` names the payloads; the last datagram of a frame may be short. -/
theorem C135_simulated (s : Setup) (w h : Nat) (hf : Fitting s w h) (unlimited : Bool) (frames : Nat) (d : Layout.Ds Nat)
    (hcr : Layout.create unlimited ⟨[h, w], [1, h, w], frames, 2⟩ = some d) (len n : Nat) (code : List Nat → Nat)
    (hl : 0 < len) (hbig : len < 2 * (w * h)) (hn : n ≤ 2 ^ 31) (hpk : s.rx.packets = parts (2 * (w * h)) len) (hsz : s.rx.size = len)
    (hbuf : n ≤ s.rx.buffers) (hcode : ∀ k, k < parts (2 * (w * h)) len → s.bytes (code (part (w * h) len k)) = part (w * h) len k) :
    ∃ created, create (2 * (w * h)) (w * h) len n = .ok created ∧
      ∀ evs : List Ev, (∀ now, Ev.tick now ∉ evs) → (packetsOf evs).Perm (datagrams code created) →
        ∃ W d', Decoder.Spec.run s.rx (Decoder.Spec.init s.rx) evs = some W ∧ deliverAll s d (W.log.map (·.1)) = some d' ∧
          ∀ f, f < n → Mine s unlimited frames f → ∀ i, i < w * h → ∃ lo hi,
            FileByte s w d' (place s f) (2 * i) lo ∧ FileByte s w d' (place s f) (2 * i + 1) hi ∧ lo + 256 * hi = i % 65536 := by
  obtain ⟨created, h1, h2, h3⟩ := createFrom_spec (w * h) len (2 * (w * h)) hl hbig (Nat.le_refl _) n 0 []
  have h3' : ∀ (j : Nat) (fr : Simulator.Frame), created[j]? = some fr → GoodFrame (w * h) len j fr := by
    intro j fr hj
    have := h3 j fr hj
    rwa [Nat.zero_add] at this
  have hkm := Decoder.accepted_packets hf.accepted
  have hk : parts (2 * (w * h)) len ≤ 2 ^ 30 := by
    rw [← hpk]; unfold Decoder.maxPackets at hkm; omega
  refine ⟨created, h1, ?_⟩
  intro evs ht hperm
  have hmem : ∀ p : Decoder.Packet, p ∈ packetsOf evs ↔
      p.frame < n ∧ p.num < parts (2 * (w * h)) len ∧ p.pay = code (part (w * h) len p.num) := by
    intro p
    rw [hperm.mem_iff]
    exact mem_datagrams (by omega) hk h2 h3' p
  have hdist : Distinct (packetsOf evs) :=
    (hperm.map (fun p : Decoder.Packet => (p.frame, p.num))).nodup_iff.2 (datagrams_distinct (by omega) hk h2 h3')
  obtain ⟨W, d', hr, hd, hall⟩ := C135_whole s w h hf unlimited frames d hcr (List.range n) evs
    (by rw [List.length_range]; exact hbuf) (fun f hf => by have := List.mem_range.1 hf; omega) ht (by
      intro p hp
      obtain ⟨q1, q2, -⟩ := (hmem p).1 hp
      exact ⟨List.mem_range.2 q1, by omega, by rw [hpk]; exact q2⟩) hdist
  refine ⟨W, d', hr, hd, ?_⟩
  intro f hfn hmine i hi
  have hwhole : Whole s.rx (packetsOf evs) f := by
    intro k hk'
    exact ⟨⟨f, k, code (part (w * h) len k)⟩, (hmem _).2 ⟨hfn, by rw [← hpk]; exact hk', rfl⟩, rfl, rfl⟩
  have hbyte : ∀ q b, q < 2 * (w * h) → (image (w * h))[q]? = some b → FileByte s w d' (place s f) q b := by
    intro q b hq hb
    have hdm := Nat.div_add_mod q len
    have hml := Nat.mod_lt q hl
    have hlt : q / len < parts (2 * (w * h)) len := by
      unfold parts
      exact (Nat.div_lt_iff_lt_mul hl).2 (by
        have := Nat.div_add_mod (2 * (w * h) + len - 1) len
        have := Nat.mod_lt (2 * (w * h) + len - 1) hl
        rw [Nat.mul_comm]
        omega)
    have := hall ⟨f, q / len, code (part (w * h) len (q / len))⟩ ((hmem _).2 ⟨hfn, hlt, rfl⟩) hwhole hmine (Nat.lt_of_lt_of_le hfn hn) (q % len) b
      (by
        show (s.bytes (code (part (w * h) len (q / len))))[q % len]? = some b
        rw [hcode _ hlt]
        unfold part
        rw [List.getElem?_take_of_lt hml, List.getElem?_drop, Nat.mul_comm (q / len), hdm]
        exact hb)
      (by rw [hsz]; exact hml)
      (by
        show q / len * s.rx.size + q % len < w * h * 2
        rw [hsz, Nat.mul_comm (q / len), hdm]
        omega)
    have e : q / len * s.rx.size + q % len = q := by rw [hsz, Nat.mul_comm, hdm]
    dsimp only at this
    rwa [e] at this
  obtain ⟨lo, hi', p1, p2, p3, -⟩ := C44_pattern (w * h) i hi
  exact ⟨lo, hi', hbyte _ _ (by omega) p1, hbyte _ _ (by omega) p2, p3⟩

/-- Non-vacuity: the setup of C135 with payloads of one pixel of the simulator. -/
def simSetup : Setup := { exSetup with bytes := fun n => [n, 0] }

theorem simFitting : Fitting simSetup 2 1 :=
  ⟨exFitting.accepted, exFitting.width, exFitting.height, exFitting.fits, exFitting.small, exFitting.wpos, exFitting.hpos,
    exFitting.dims, exFitting.dtype, exFitting.way, exFitting.last, exFitting.comp, exFitting.lossless, exFitting.bounded,
    exFitting.procs, exFitting.fpb, exFitting.bpf, exFitting.adj⟩

def simCode (l : List Nat) : Nat := l.headD 0

example : Layout.create true ⟨[1, 2], [1, 1, 2], 0, 2⟩ = some exDs ∧ simSetup.rx.packets = parts (2 * (2 * 1)) 2 ∧ simSetup.rx.size = 2 ∧
    Mine simSetup true 0 1 := ⟨rfl, by decide, rfl, by decide, by decide, Or.inl rfl⟩
example : ∀ k, k < parts (2 * (2 * 1)) 2 → simSetup.bytes (simCode (part (2 * 1) 2 k)) = part (2 * 1) 2 k := by
  intro k hk
  have : ∀ k : Fin 2, simSetup.bytes (simCode (part (2 * 1) 2 k.val)) = part (2 * 1) 2 k.val := by decide +kernel
  exact this ⟨k, hk⟩
example : (match create 4 2 2 2 with
    | .ok fs => (packetsOf [Ev.packet ⟨1, 1, 1⟩ 0, .packet ⟨0, 0, 0⟩ 1, .packet ⟨1, 0, 0⟩ 2, .packet ⟨0, 1, 1⟩ 3]).isPerm (datagrams simCode fs)
    | _ => false) = true := by decide +kernel

end Verif.EndToEnd
