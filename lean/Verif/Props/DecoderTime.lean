import Verif.Props.Times
import Verif.Props.DecoderCount
/-! Properties C35 and C61: frames that time out, and frames that are complete. -/
namespace Verif.Decoder

namespace Spec

/-- Age of a frame in nanoseconds: since its first packet. -/
def World.age (w : World) (f : Nat) (now : Int) : Int := now - w.began f

/-- The frames in reception. -/
def World.mapped (w : World) (f b : Nat) : Prop := (f, b) ∈ w.s.map

/-- The frames handed on by a step. -/
def handed (w w' : World) : List Ready := (w'.log.drop w.log.length).map (·.1)

end Spec
open Spec

/-! ## C35 -/

/-- The monitor finds the frame too old. -/
def expired (c : Cfg) (start : Nat → Int) (now : Int) (x : Nat × Nat) : Bool :=
  match elapsedMs (start x.2) now with
  | none => false
  | some ms => decide (ms > c.timeout)

def starts (s : State) : Nat → Int := fun b => (s.bufs (.shared b)).start

theorem timeOut_starts (c : Cfg) (s : State) (f b : Nat) : starts (timeOut c s f b).1 = starts s := by
  funext k
  unfold starts timeOut setBuf
  simp only [Loc.shared.injEq]
  split
  · rename_i e; rw [e]
  · rfl

theorem filter_filter_ne (l : List (Nat × Nat)) (f : Nat) (K : List Nat) :
    (erase l f).filter (fun y => decide (y.1 ∉ K)) = l.filter (fun y => decide (y.1 ∉ f :: K)) := by
  unfold erase
  rw [List.filter_filter]
  apply List.filter_congr
  intro y _
  by_cases h1 : y.1 = f <;> by_cases h2 : y.1 ∈ K <;> simp [h1, h2]

/-- The monitor, exactly. -/
theorem monitorLoop_exact (c : Cfg) (now : Int) (m : List (Nat × Nat)) : ∀ (s : State) (r : State × List Ready),
    monitorLoop c now m s = some r →
    r.2.map (fun x => (x.frame, x.buffer)) = m.filter (expired c (starts s) now) ∧
    r.1.map = s.map.filter (fun y => decide (y.1 ∉ (m.filter (expired c (starts s) now)).map (·.1))) ∧
    starts r.1 = starts s ∧ r.1.empty = s.empty := by
  induction m with
  | nil =>
    intro s r h
    cases h
    refine ⟨rfl, ?_, rfl, rfl⟩
    symm
    rw [List.filter_eq_self]
    intro a _
    simp
  | cons x m ih =>
    intro s r h
    obtain ⟨f, b⟩ := x
    simp only [monitorLoop] at h
    split at h
    · cases he : elapsedMs (s.bufs (.shared b)).start now with
      | none => rw [he] at h; cases h
      | some ms =>
        rw [he] at h
        simp only at h
        have hex : expired c (starts s) now (f, b) = decide (ms > c.timeout) := by
          unfold expired starts
          rw [he]
        split at h
        · rename_i hgt
          obtain ⟨q, hq, e⟩ := Option.map_eq_some_iff.1 h
          cases e
          obtain ⟨a1, a2, a3, a4⟩ := ih _ q hq
          rw [timeOut_starts] at a1 a2 a3
          have hf : ((f, b) :: m).filter (expired c (starts s) now) = (f, b) :: m.filter (expired c (starts s) now) := by
            rw [List.filter_cons, hex, decide_eq_true hgt]; rfl
          rw [hf]
          refine ⟨?_, ?_, a3, a4⟩
          · show (f, b) :: q.2.map _ = _
            rw [a1]
          · show q.1.map = _
            rw [a2]
            exact filter_filter_ne s.map f _
        · rename_i hgt
          have hf : ((f, b) :: m).filter (expired c (starts s) now) = m.filter (expired c (starts s) now) := by
            rw [List.filter_cons, hex, decide_eq_false hgt]; rfl
          rw [hf]
          exact ih s r h
    · cases h

/-- A time from 1970 to 2038. -/
def Spec.Clock (t : Int) : Prop := 0 ≤ t ∧ t < 2147483648000000000

/-- A double that holds a quotient below 2^32 is a multiple of 2^-21 at least, and the nearest one to the quotient: cutting it to an
integer gives what cutting the exact quotient gives. -/
theorem quotient_floor (d a : Nat) (h1 : 2 * (a * 1000000) ≤ 2 * (d * 2097152) + 1000000)
    (h2 : 2 * (d * 2097152) ≤ 2 * (a * 1000000) + 1000000) : a / 2097152 = d / 1000000 := by
  omega

theorem rndInt_near (i : Int) (h1 : 0 ≤ i) (h2 : i < 2 ^ 61) : i ≤ Times.rndInt i + 128 ∧ Times.rndInt i ≤ i + 128 ∧ 0 ≤ Times.rndInt i := by
  unfold Times.rndInt
  rw [if_pos h1]
  have := Times.rnd_near i.toNat (by omega)
  omega

theorem dbl_near (t : Int) (h : Clock t) : t ≤ dbl t + 256 ∧ dbl t ≤ t + 256 := by
  obtain ⟨h1, h2⟩ := h
  unfold dbl
  have g1 := rndInt_near (t / 1000000000 * 1000000000) (by omega) (by omega)
  have g2 := rndInt_near (Times.rndInt (t / 1000000000 * 1000000000) + t % 1000000000) (by omega) (by omega)
  omega

/-- The difference as it is computed is at most 512 ns off. -/
theorem diff_near (a t : Int) (ha : Clock a) (ht : Clock t) (h1 : -1000000 < t - a) (h2 : t - a < 4294967295000000) :
    t - a ≤ Times.rndInt (dbl t - dbl a) + 512 ∧ Times.rndInt (dbl t - dbl a) ≤ t - a + 512 := by
  have g1 := dbl_near a ha
  have g2 := dbl_near t ht
  rw [Times.rndInt_exact _ (by omega) (by omega)]
  omega

theorem elapsed_defined (a t : Int) (ha : Clock a) (ht : Clock t) (h1 : -999000 < t - a) (h2 : t - a < 4294967295000000) :
    elapsedMs a t = some (Int.tdiv (Times.rndInt (dbl t - dbl a)) 1000000).toNat := by
  have := diff_near a t ha ht (by omega) h2
  unfold elapsedMs
  rw [if_neg (by omega), if_neg (by omega)]

theorem monitorLoop_some (c : Cfg) (now : Int) (hn : Clock now) (m : List (Nat × Nat)) : ∀ (s : State),
    (∀ x ∈ m, x.2 < c.buffers ∧ Clock (starts s x.2) ∧ -999000 < now - starts s x.2 ∧ now - starts s x.2 < 4294967295000000) →
    ∃ r, monitorLoop c now m s = some r := by
  induction m with
  | nil => intro s _; exact ⟨_, rfl⟩
  | cons x m ih =>
    intro s h
    obtain ⟨f, b⟩ := x
    obtain ⟨h1, hc, h2, h3⟩ := h (f, b) (by simp)
    simp only [monitorLoop]
    rw [if_pos h1, show elapsedMs (s.bufs (.shared b)).start now = _ from elapsed_defined _ now hc hn h2 h3]
    simp only
    split
    · obtain ⟨r, hr⟩ := ih (timeOut c s f b).1 (fun y hy => by rw [timeOut_starts]; exact h y (List.mem_cons_of_mem _ hy))
      rw [hr]
      exact ⟨_, rfl⟩
    · exact ih s (fun y hy => h y (List.mem_cons_of_mem _ hy))

theorem expired_near (c : Cfg) (start : Nat → Int) (now : Int) (x : Nat × Nat) (hn : Clock now) (hc : Clock (start x.2))
    (h2 : -999000 < now - start x.2) (h3 : now - start x.2 < 4294967295000000) :
    ((c.timeout + 1) * 1000000 + 512 ≤ now - start x.2 → expired c start now x = true) ∧
    (expired c start now x = true → (c.timeout + 1) * 1000000 - 512 ≤ now - start x.2) := by
  have hd := diff_near _ now hc hn (by omega) h3
  unfold expired
  rw [elapsed_defined _ now hc hn h2 h3]
  generalize Times.rndInt (dbl now - dbl (start x.2)) = a at *
  simp only [decide_eq_true_eq]
  by_cases hneg : 0 ≤ a
  · rw [Int.tdiv_eq_ediv_of_nonneg hneg]
    omega
  · have h5 : Int.tdiv a 1000000 = 0 := by
      rw [← Int.neg_neg a, Int.neg_tdiv, Int.tdiv_eq_ediv_of_nonneg (by omega)]
      omega
    rw [h5]
    omega

/-- A mapped frame has begun, and the header says when. -/
def Begun (w : World) : Prop :=
  (∀ f b, lookup w.s.map f = some b → starts w.s b = w.began f ∧ w.rx f ≠ []) ∧ ∀ f, lookup w.s.map f = none → w.rx f = []

theorem store_starts (c : Cfg) (s s' : State) (p : Packet) (h : store c s p = some s') : starts s' = starts s := by
  unfold store at h
  split at h
  · cases h
  · rename_i l hl
    split at h
    · cases h
    · cases h
      funext k
      unfold starts
      rw [countPacket_bufs]
      unfold setBuf
      simp only
      split
      · rename_i e; rw [e]; rfl
      · rfl

theorem finish_starts (c : Cfg) (s : State) (r : State × List Ready) (h : finish c s = some r) : starts r.1 = starts s := by
  unfold finish at h
  split at h
  · cases h
  · split at h
    · split at h
      all_goals
        cases h
        funext k
        unfold starts
        simp only [handOn, setBuf]
        split
        · rename_i e; rw [e]; rfl
        · rfl
    · cases h
      funext k
      unfold starts
      simp only [setBuf]
      split
      · rename_i e; rw [e]; rfl
      · rfl

theorem finish_map (c : Cfg) (s : State) (r : State × List Ready) (h : finish c s = some r) :
    r.1.map = s.map ∨ r.1.map = erase s.map s.seen := by
  unfold finish at h
  split at h
  · cases h
  · split at h
    · split at h
      · cases h; exact Or.inl rfl
      · cases h; exact Or.inr rfl
    · cases h; exact Or.inl rfl

theorem select_begun (c : Cfg) (w : World) (s' : State) (p : Packet) (now : Int) (ho : Own c w.s w.out w.stale)
    (h : Begun w) (hs : select c w.s p.frame now = some s') :
    ∀ f b, lookup s'.map f = some b →
      starts s' b = (if f = p.frame ∧ w.rx f = [] then now else w.began f) ∧ (f = p.frame ∨ w.rx f ≠ []) := by
  have old : ∀ f b, lookup w.s.map f = some b → starts w.s b = (if f = p.frame ∧ w.rx f = [] then now else w.began f) ∧
      (f = p.frame ∨ w.rx f ≠ []) := by
    intro f b hb
    obtain ⟨a1, a2⟩ := h.1 f b hb
    rw [if_neg (fun e => a2 e.2)]
    exact ⟨a1, Or.inr a2⟩
  unfold select at hs
  by_cases h1 : p.frame = w.s.seen
  · rw [if_pos h1] at hs
    cases hs
    exact old
  · rw [if_neg h1] at hs
    cases hl : lookup w.s.map p.frame with
    | some b =>
      rw [hl] at hs
      simp only at hs
      split at hs
      · cases hs; exact old
      · cases hs
    | none =>
      rw [hl] at hs
      simp only at hs
      cases hq : w.s.empty with
      | nil => rw [hq] at hs; cases hs; exact old
      | cons b q =>
        rw [hq] at hs
        simp only at hs
        split at hs
        · cases hs
          intro f b' hb'
          replace hb' : lookup ((p.frame, b) :: w.s.map) f = some b' := hb'
          simp only [lookup] at hb'
          split at hb'
          · rename_i e
            cases hb'
            subst e
            rw [if_pos ⟨rfl, h.2 _ hl⟩]
            exact ⟨by simp [starts, initHeader, setBuf], Or.inl rfl⟩
          · have hne : b' ≠ b := by
              rintro rfl
              have hnd := ho.perm.nodup_iff.2 List.nodup_range
              rw [hq, List.append_assoc] at hnd
              have hm := List.mem_map_of_mem (f := (·.2)) (lookup_mem hb')
              exact (List.nodup_append.1 hnd).2.2 b' (by simp) b' (List.mem_append_left _ hm) rfl
            have : starts (initHeader (openFrame w.s p.frame b q) (.shared b) now) b' = starts w.s b' := by
              simp [starts, initHeader, openFrame, setBuf, hne]
            rw [this]
            exact old f b' hb'
        · cases hs

theorem lookup_filter {l : List (Nat × Nat)} {K : List Nat} {f b : Nat}
    (h : lookup (l.filter (fun y => decide (y.1 ∉ K))) f = some b) : lookup l f = some b := by
  induction l with
  | nil => cases h
  | cons x l ih =>
    obtain ⟨k, v⟩ := x
    rw [List.filter_cons] at h
    simp only [lookup]
    by_cases hk : k ∈ K
    · rw [if_neg (by simp [hk])] at h
      have hne : k ≠ f := by
        rintro rfl
        have := List.mem_filter.1 (lookup_mem h)
        simp [hk] at this
      rw [if_neg hne]
      exact ih h
    · rw [if_pos (by simp [hk])] at h
      simp only [lookup] at h
      split at h
      · rename_i e; rw [if_pos e]; exact h
      · rename_i e; rw [if_neg e]; exact ih h

theorem step_begun (c : Cfg) (w w' : World) (e : Ev) (ho : Own c w.s w.out w.stale) (h : Begun w)
    (hs : step c w e = some w') : Begun w' := by
  cases e with
  | packet p now =>
    obtain ⟨r, hr, e⟩ := Option.map_eq_some_iff.1 hs
    cases e
    unfold packet at hr
    obtain ⟨s1, h1, hr⟩ := Option.bind_eq_some_iff.1 hr
    obtain ⟨s2, h2, hr⟩ := Option.bind_eq_some_iff.1 hr
    have hb := select_begun c w s1 p now ho h h1
    have m2 := (store_frame c s1 s2 p h2).2.1
    have st : starts r.1 = starts s1 := (finish_starts c s2 r hr).trans (store_starts c s1 s2 p h2)
    constructor
    · intro f b hf
      replace hf : lookup r.1.map f = some b := hf
      have hf1 : lookup s1.map f = some b := by
        rcases finish_map c s2 r hr with hm | hm
        · rw [hm, m2] at hf; exact hf
        · rw [hm, m2] at hf
          have hne : f ≠ s2.seen := by
            rintro rfl
            rw [lookup_erase_self] at hf
            cases hf
          rw [lookup_erase_ne hne] at hf
          exact hf
      obtain ⟨a1, a2⟩ := hb f b hf1
      refine ⟨?_, ?_⟩
      · show starts r.1 b = _
        rw [st]
        exact a1
      · show (if lookup r.1.map f = none then [] else rxAdd w.rx p f) ≠ []
        rw [if_neg (by rw [hf]; simp)]
        unfold rxAdd
        split
        · simp
        · rename_i hne
          rcases a2 with a2 | a2
          · exact absurd a2 hne
          · exact a2
    · intro f hf
      exact if_pos hf
  | tick now =>
    obtain ⟨r, hr, e⟩ := Option.map_eq_some_iff.1 hs
    cases e
    obtain ⟨a1, a2, a3, -⟩ := monitorLoop_exact c now _ _ r hr
    constructor
    · intro f b hf
      replace hf : lookup r.1.map f = some b := hf
      have hf0 := hf
      rw [a2] at hf
      obtain ⟨b1, b2⟩ := h.1 f b (lookup_filter hf)
      refine ⟨?_, ?_⟩
      · show starts r.1 b = w.began f
        rw [a3]; exact b1
      · show (if lookup r.1.map f = none then [] else w.rx f) ≠ []
        rw [if_neg (by rw [hf0]; simp)]
        exact b2
    · intro f hf
      exact if_pos hf
  | release b =>
    simp only [step] at hs
    split at hs <;> cases hs <;> exact h

theorem run_begun (c : Cfg) (evs : List Ev) (w : World) (hp : Every c Punctual (init c) evs)
    (hr : run c (init c) evs = some w) : Own c w.s w.out w.stale ∧ Begun w :=
  run_induct c Punctual (fun w => Own c w.s w.out w.stale ∧ Begun w)
    (fun w w' e h hp hs => ⟨step_own c w w' e h.1 hp hs, step_begun c w w' e h.1 h.2 hs⟩) evs (init c) w
    ⟨init_own c, ⟨fun f b hb => (by cases hb), fun _ _ => rfl⟩⟩ hp hr

/-- C35, full statement: a run of the monitor hands on the frames older than the timeout, and keeps the others. -/
def C35_statement : Prop :=
  ∀ (c : Cfg) (evs : List Ev) (w : World) (now : Int), c.accepted = true → Every c Punctual (init c) evs →
    run c (init c) evs = some w →
    ∃ w', step c w (.tick now) = some w' ∧ ∀ f b, w.mapped f b →
      (w.age f now > c.timeout * 1000000 → ¬ w'.mapped f b ∧ ∃ r ∈ handed w w', r.frame = f ∧ r.buffer = b) ∧
      (w.age f now ≤ c.timeout * 1000000 → w'.mapped f b ∧ ∀ r ∈ handed w w', r.frame ≠ f)

/-- C35, proved part: the age is cut to whole milliseconds, so that a frame is handed on from one millisecond after
the timeout; times are kept as doubles, so that this is so within 512 nanoseconds; and the clock must not have been set back by
a millisecond, nor the frame be 49 days old. The frames handed on are marked as timed out, and no others are handed on. Missing: the fraction of a millisecond
(`C35_violated`), the rounding (`C35_late`, `C35_soon`) and clocks set back (`C35_clock_ub`). -/
theorem C35_partial (c : Cfg) (evs : List Ev) (w : World) (now : Int) (hp : Every c Punctual (init c) evs)
    (hr : run c (init c) evs = some w)
    (hn : Clock now)
    (hage : ∀ f b, w.mapped f b → Clock (w.began f) ∧ -999000 < w.age f now ∧ w.age f now < 4294967295000000) :
    ∃ w', step c w (.tick now) = some w' ∧ (∀ f b, w.mapped f b →
      (w.age f now ≥ (c.timeout + 1) * 1000000 + 512 → ¬ w'.mapped f b ∧ ∃ r ∈ handed w w', r.frame = f ∧ r.buffer = b) ∧
      (w.age f now < (c.timeout + 1) * 1000000 - 512 → w'.mapped f b ∧ ∀ r ∈ handed w w', r.frame ≠ f)) ∧
      ∀ r ∈ handed w w', w.mapped r.frame r.buffer ∧ r.buf.state = .timedout := by
  obtain ⟨ho, hb⟩ := run_begun c evs w hp hr
  have hstart : ∀ x ∈ w.s.map, now - starts w.s x.2 = w.age x.1 now := by
    intro x hx
    unfold World.age
    rw [(hb.1 x.1 x.2 (mem_lookup ho.keys hx)).1]
  have hids : ∀ x ∈ w.s.map, x.2 < c.buffers := by
    intro x hx
    have : x.2 ∈ List.range c.buffers := ho.perm.mem_iff.1 (by
      simp only [List.mem_append]
      exact Or.inl (Or.inr (List.mem_map_of_mem hx)))
    exact List.mem_range.1 this
  have hbegan : ∀ x ∈ w.s.map, starts w.s x.2 = w.began x.1 := fun x hx => (hb.1 x.1 x.2 (mem_lookup ho.keys hx)).1
  obtain ⟨r, hm⟩ := monitorLoop_some c now hn w.s.map w.s (fun x hx => by
    rw [hstart x hx, hbegan x hx]
    exact ⟨hids x hx, hage x.1 x.2 hx⟩)
  obtain ⟨a1, a2, -, -⟩ := monitorLoop_exact c now w.s.map w.s r hm
  have a3 := (monitorLoop_counters c now w.s.map w.s r hm).2.2.2.2.2.2
  have hstep : step c w (.tick now) = some { w.hand r.1 r.2 w.rx with stale := w.stale ++ r.2.map (·.frame) } := by
    simp only [step, monitor, hm, Option.map_some]
  refine ⟨_, hstep, ?_⟩
  have hh : handed w { w.hand r.1 r.2 w.rx with stale := w.stale ++ r.2.map (·.frame) } = r.2 := by
    unfold handed World.hand
    simp only [List.drop_left, List.map_map]
    exact List.map_id r.2
  rw [hh]
  have hexp : ∀ x ∈ w.s.map, ((c.timeout + 1) * 1000000 + 512 ≤ w.age x.1 now → expired c (starts w.s) now x = true) ∧
      (expired c (starts w.s) now x = true → (c.timeout + 1) * 1000000 - 512 ≤ w.age x.1 now) := by
    intro x hx
    have := hage x.1 x.2 hx
    rw [← hstart x hx, ← hbegan x hx] at this
    rw [← hstart x hx]
    exact expired_near c (starts w.s) now x hn this.1 this.2.1 this.2.2
  have hkey : ∀ f b, (f, b) ∈ w.s.map → (f ∈ (w.s.map.filter (expired c (starts w.s) now)).map (·.1) ↔
      expired c (starts w.s) now (f, b) = true) := by
    intro f b hfb
    constructor
    · intro hf
      obtain ⟨y, hy, e⟩ := List.mem_map.1 hf
      have hy' := List.mem_filter.1 hy
      obtain ⟨y1, y2⟩ := y
      cases e
      have h1 := mem_lookup ho.keys hy'.1
      have h2 := mem_lookup ho.keys hfb
      rw [h1] at h2
      cases h2
      exact hy'.2
    · intro he
      exact List.mem_map.2 ⟨(f, b), List.mem_filter.2 ⟨hfb, he⟩, rfl⟩
  refine ⟨?_, ?_⟩
  · intro f b hfb
    refine ⟨fun hge => ⟨?_, ?_⟩, fun hlt => ⟨?_, ?_⟩⟩
    · intro hm'
      replace hm' : (f, b) ∈ r.1.map := hm'
      rw [a2] at hm'
      have := (List.mem_filter.1 hm').2
      rw [decide_eq_true_eq] at this
      exact this ((hkey f b hfb).2 ((hexp _ hfb).1 hge))
    · have : (f, b) ∈ r.2.map (fun x => (x.frame, x.buffer)) := by
        rw [a1]
        exact List.mem_filter.2 ⟨hfb, (hexp _ hfb).1 hge⟩
      obtain ⟨x, hx, e⟩ := List.mem_map.1 this
      exact ⟨x, hx, (Prod.mk.inj e).1, (Prod.mk.inj e).2⟩
    · show (f, b) ∈ r.1.map
      rw [a2]
      refine List.mem_filter.2 ⟨hfb, ?_⟩
      rw [decide_eq_true_eq]
      intro hf
      have := (hexp _ hfb).2 ((hkey f b hfb).1 hf)
      simp only at this
      omega
    · intro x hx hxf
      have : (x.frame, x.buffer) ∈ r.2.map (fun x => (x.frame, x.buffer)) := List.mem_map.2 ⟨x, hx, rfl⟩
      rw [a1] at this
      have h1 := (hkey f b hfb).1 (List.mem_map.2 ⟨_, this, hxf⟩)
      have := (hexp _ hfb).2 h1
      simp only at this
      omega
  · intro x hx
    have : (x.frame, x.buffer) ∈ r.2.map (fun x => (x.frame, x.buffer)) := List.mem_map.2 ⟨x, hx, rfl⟩
    rw [a1] at this
    exact ⟨(List.mem_filter.1 this).1, a3 x hx⟩

/-- C35 is false of the code: half a millisecond after the timeout the frame is kept. -/
theorem C35_violated : ¬ C35_statement := by
  intro h
  have hp : Every small Punctual (init small) [.packet ⟨0, 0, 7⟩ 0] :=
    every_of_everyB _ Punctual (fun w p => decide (p.frame ∉ w.stale) && decide (p.frame ≠ 4294967295))
      (fun w p h => by rw [Bool.and_eq_true, decide_eq_true_eq, decide_eq_true_eq] at h; exact h) _ _ (by decide +kernel)
  have h1 : (run small (init small) [.packet ⟨0, 0, 7⟩ 0]).map (fun w => (w.s.map, w.began 0,
      (step small w (.tick 1000500000)).map (fun w' => w'.s.map))) = some ([(0, 0)], 0, some [(0, 0)]) := by decide +kernel
  cases hr : run small (init small) [.packet ⟨0, 0, 7⟩ 0] with
  | none => rw [hr] at h1; cases h1
  | some w =>
    rw [hr] at h1
    have h2 : (w.s.map, w.began 0, (step small w (.tick 1000500000)).map (fun w' => w'.s.map)) = ([(0, 0)], 0, some [(0, 0)]) :=
      Option.some.inj h1
    obtain ⟨w', hs, hall⟩ := h small _ w 1000500000 (by decide) hp hr
    have h3 := (Prod.mk.inj (Prod.mk.inj h2).2).2
    rw [hs] at h3
    have h4 : w'.s.map = [(0, 0)] := Option.some.inj h3
    have h5 := (hall 0 0 (by unfold World.mapped; rw [(Prod.mk.inj h2).1]; simp)).1 (by
      unfold World.age
      rw [(Prod.mk.inj (Prod.mk.inj h2).2).1]
      decide)
    exact h5.1 (by unfold World.mapped; rw [h4]; simp)

/-- When the clock is set back by a millisecond or more, a negative number is converted to `unsigned int`. -/
theorem C35_clock_ub : (run small (init small) [.packet ⟨0, 0, 7⟩ 5000000, .tick 4000000]).isNone = true := by decide +kernel

/-- Non-vacuity of `C35_partial`: in 2023, of two frames with a timeout of a second one is handed on. -/
example : Clock 1700000002000000000 ∧ (run { small with buffers := 2 } (init { small with buffers := 2 })
    [.packet ⟨0, 0, 7⟩ 1700000000500000000, .packet ⟨1, 0, 9⟩ 1700000001200000000, .tick 1700000002000000000]).map
    (fun w => (w.s.map, w.began 1, w.log.length)) = some ([(1, 1)], 1700000001200000000, 1) := by
  refine ⟨⟨by decide, by decide⟩, by decide +kernel⟩

/-- The clock is kept as a double: a frame that is 1001 ms old is kept although the timeout is 1000 ms ... -/
theorem C35_late : (run small (init small) [.packet ⟨0, 0, 7⟩ 1700000000000000200, .tick 1700000001001000200]).map (fun w => w.s.map) =
    some [(0, 0)] := by decide +kernel

/-- ... and a younger one, a little less than 1001 ms old, is handed on. -/
theorem C35_soon : (run small (init small) [.packet ⟨0, 0, 7⟩ 1700000000000000100, .tick 1700000001001000070]).map (fun w => w.s.map) =
    some [] := by decide +kernel

/-! ## C61 -/

/-- C61, full statement: a frame all of whose packets have arrived does not stay in the decoder. -/
def C61_statement : Prop :=
  ∀ (c : Cfg) (evs : List Ev) (w : World), c.accepted = true → 0 < c.packets → Every c (Regular c) (init c) evs →
    run c (init c) evs = some w → ∀ f b, w.mapped f b → ∃ k, k < c.packets ∧ k ∉ (w.rx f).map (·.1)

theorem pending_step (c : Cfg) (w w' : World) (e : Ev) (hP : 0 < c.packets) (hl : w.s.dropping = w.last)
    (hpd : w.refused = 0 → w.last = false ∧ ∀ x ∈ w.s.map, (w.s.bufs (.shared x.2)).received < c.packets)
    (hp : ∀ p now, e = .packet p now → Regular c w p) (hpk : c.packets ≤ maxPackets) (hi : Inv c w)
    (hs : step c w e = some w') :
    w'.refused = 0 → w'.last = false ∧ ∀ x ∈ w'.s.map, (w'.s.bufs (.shared x.2)).received < c.packets := by
  intro hz
  cases e with
  | packet p now =>
    obtain ⟨⟨p1, p2⟩, p3, p4⟩ := hp p now rfl
    obtain ⟨r, hr, e⟩ := Option.map_eq_some_iff.1 hs
    cases e
    replace hz : (if w.refuses p then w.refused + 1 else w.refused) = 0 := hz
    have hre : w.refuses p = false := by
      cases h : w.refuses p with
      | false => rfl
      | true => rw [h] at hz; simp at hz
    rw [hre] at hz
    obtain ⟨c1, c2⟩ := hpd (by simpa using hz)
    refine ⟨?_, ?_⟩
    · show (if w.refuses p then true else if w.accepts p then false else w.last) = false
      rw [hre, c1]
      simp
    · unfold packet at hr
      obtain ⟨s1, h1, hr⟩ := Option.bind_eq_some_iff.1 hr
      obtain ⟨s2, h2, hr⟩ := Option.bind_eq_some_iff.1 hr
      obtain ⟨ho, hseen⟩ := select_own c w.s s1 p.frame now w.out w.stale hi.own p1 p2 h1
      have hdr : s1.dropping = false := by
        rw [(select_dropping c w s1 p now h1).1, hre, hl, c1]
        simp
      have c3 : ∀ x ∈ s1.map, (s1.bufs (.shared x.2)).received < c.packets := by
        unfold select at h1
        unfold World.refuses at hre
        by_cases h3 : p.frame = w.s.seen
        · rw [if_pos h3] at h1; cases h1; exact c2
        · rw [if_neg h3] at h1
          cases hlk : lookup w.s.map p.frame with
          | some b =>
            rw [hlk] at h1
            simp only at h1
            split at h1
            · cases h1; exact c2
            · cases h1
          | none =>
            rw [hlk] at h1
            simp only at h1
            cases hq : w.s.empty with
            | nil => rw [hlk, hq] at hre; simp [h3] at hre
            | cons b q =>
              rw [hq] at h1
              simp only at h1
              split at h1
              · cases h1
                intro x hx
                by_cases hxb : x.2 = b
                · rw [hxb]
                  simp [initHeader, setBuf, openFrame, hP]
                · replace hx : x ∈ (p.frame, b) :: w.s.map := hx
                  rcases List.mem_cons.1 hx with rfl | hx
                  · exact absurd rfl hxb
                  · have : (initHeader (openFrame w.s p.frame b q) (.shared b) now).bufs (.shared x.2) = w.s.bufs (.shared x.2) := by
                      simp [initHeader, openFrame, setBuf, hxb]
                    rw [this]
                    exact c2 x hx
              · cases h1
      obtain ⟨b, hb⟩ : ∃ b, lookup s1.map s1.seen = some b := by
        cases hlk : lookup s1.map s1.seen with
        | some b => exact ⟨b, rfl⟩
        | none =>
          rcases ho.unmapped hlk with h | h | h
          · exact absurd (hseen.symm.trans h) p2
          · rw [ho.scratch h] at hdr; cases hdr
          · cases h
      have hcur := (ho.mapped b hb).1
      obtain ⟨-, m2, m3, m4, -, m6, -⟩ := store_frame c s1 s2 p h2
      have hrec : ∀ l, (s2.bufs l).received = (s1.bufs l).received := by
        unfold store at h2
        rw [hcur] at h2
        simp only at h2
        split at h2
        · cases h2
        · cases h2
          intro l
          rw [countPacket_bufs]
          simp only [setBuf]
          split
          · rename_i e; rw [e]; rfl
          · rfl
      have hlt := c3 _ (lookup_mem hb)
      have hcount : (counted (s2.bufs (.shared b))).received = (s1.bufs (.shared b)).received + 1 := by
        show ((s2.bufs (.shared b)).received + 1) % 4294967296 = _
        rw [hrec]
        simp only at hlt
        unfold maxPackets at hpk
        exact Nat.mod_eq_of_lt (by omega)
      unfold finish at hr
      rw [m4, hcur] at hr
      simp only at hr
      split at hr
      · rw [m6, hdr] at hr
        cases hr
        intro x hx
        replace hx : x ∈ erase s2.map s2.seen := hx
        obtain ⟨hx1, hx2⟩ := mem_erase.1 hx
        rw [m2] at hx1
        rw [m3] at hx2
        have hxb : x.2 ≠ b := by
          intro e
          exact hx2 (own_distinct ho (mem_lookup ho.keys (show (x.1, b) ∈ s1.map by rw [← e]; exact hx1)) hb)
        have : ((handOn (setBuf s2 (.shared b) (completed (counted (s2.bufs (.shared b)))))
            (completed (counted (s2.bufs (.shared b))))).1.bufs (.shared x.2)) = s2.bufs (.shared x.2) := by
          simp [handOn, setBuf, hxb]
        show ((handOn (setBuf s2 (.shared b) (completed (counted (s2.bufs (.shared b)))))
            (completed (counted (s2.bufs (.shared b))))).1.bufs (.shared x.2)).received < c.packets
        rw [this, hrec]
        exact c3 x hx1
      · rename_i hne
        cases hr
        intro x hx
        replace hx : x ∈ s2.map := hx
        rw [m2] at hx
        show ((setBuf s2 (.shared b) (counted (s2.bufs (.shared b)))).bufs (.shared x.2)).received < c.packets
        by_cases hxb : x.2 = b
        · rw [hxb]
          simp only [setBuf, if_true]
          rw [hcount] at hne ⊢
          simp only at hlt
          omega
        · simp only [setBuf, Loc.shared.injEq, hxb, if_false]
          rw [hrec]
          exact c3 x hx
  | tick now =>
    obtain ⟨r, hr, e⟩ := Option.map_eq_some_iff.1 hs
    cases e
    obtain ⟨c1, c2⟩ := hpd hz
    refine ⟨c1, ?_⟩
    have hrec : ∀ (m : List (Nat × Nat)) (s : State) (r : State × List Ready), monitorLoop c now m s = some r →
        ∀ l, (r.1.bufs l).received = (s.bufs l).received := by
      intro m
      induction m with
      | nil => intro s r h; cases h; intro l; rfl
      | cons x m ih =>
        intro s r h l
        obtain ⟨f, b⟩ := x
        simp only [monitorLoop] at h
        split at h
        · split at h
          · cases h
          · split at h
            · obtain ⟨q, hq, e⟩ := Option.map_eq_some_iff.1 h
              cases e
              show (q.1.bufs l).received = _
              rw [ih _ q hq l]
              simp only [timeOut, setBuf]
              split
              · rename_i e; rw [e]
              · rfl
            · exact ih s r h l
        · cases h
    intro x hx
    replace hx : x ∈ r.1.map := hx
    rw [(monitorLoop_exact c now _ _ r hr).2.1] at hx
    show (r.1.bufs (.shared x.2)).received < c.packets
    rw [hrec _ _ r hr]
    exact c2 x (List.mem_filter.1 hx).1
  | release b =>
    simp only [step] at hs
    split at hs <;> cases hs <;> exact hpd hz

/-- C61, proved part: if no frame was refused a buffer. Missing: after a refusal (`C61_violated`). -/
theorem C61_partial (c : Cfg) (evs : List Ev) (w : World) (ha : c.accepted = true) (hP : 0 < c.packets)
    (hp : Every c (Regular c) (init c) evs) (hr : run c (init c) evs = some w) (hz : w.refused = 0) (f b : Nat)
    (hm : w.mapped f b) : ∃ k, k < c.packets ∧ k ∉ (w.rx f).map (·.1) := by
  have hpk : c.packets ≤ maxPackets := by
    unfold Cfg.accepted at ha
    rw [Bool.and_eq_true, decide_eq_true_eq] at ha
    exact ha.1
  obtain ⟨hi, _, hpd⟩ := run_induct c (Regular c) (fun w => Inv c w ∧ w.s.dropping = w.last ∧
      (w.refused = 0 → w.last = false ∧ ∀ x ∈ w.s.map, (w.s.bufs (.shared x.2)).received < c.packets))
    (fun w w' e h hp hs => ⟨step_inv c ha w w' e h.1 hp hs, (dropped_step c w w' e hs h.2.1).1,
      pending_step c w w' e hP h.2.1 h.2.2 hp hpk h.1 hs⟩) evs (init c) w
    ⟨init_inv c, rfl, fun _ => ⟨rfl, fun x hx => (by cases hx)⟩⟩ hp hr
  have hlt := (hpd hz).2 _ hm
  have hg := hi.dat.1 f b (mem_lookup hi.own.keys hm)
  have hmiss := (missing_good hg).1
  simp only at hlt
  have hpos : 0 < missing c (w.rx f) := by omega
  unfold missing at hpos
  obtain ⟨k, hk⟩ := List.exists_mem_of_length_pos hpos
  have := List.mem_filter.1 hk
  exact ⟨k, List.mem_range.1 this.1, of_decide_eq_true this.2⟩

/-- The first packet of frame 0, of frame 1 (for which there is no buffer), and the rest of frame 0. -/
def stuck : List Ev := [.packet ⟨0, 0, 7⟩ 0, .packet ⟨1, 0, 7⟩ 1, .packet ⟨0, 1, 7⟩ 2]

theorem stuck_run : (run small (init small) stuck).map (fun w => (w.s.map, (w.rx 0).map (·.1))) = some ([(0, 0)], [1, 0]) := by
  decide +kernel

/-- C61 is false of the code: the flag for dropping a frame stays set for the packets of frames that have a buffer. -/
theorem C61_violated : ¬ C61_statement := by
  intro h
  have hp : Every small (Regular small) (init small) stuck := every_of_everyB _ _ _ (regular_of_bool _) _ _ (by decide +kernel)
  have h1 := stuck_run
  cases hr : run small (init small) stuck with
  | none => rw [hr] at h1; cases h1
  | some w =>
    rw [hr] at h1
    have h2 : (w.s.map, (w.rx 0).map (·.1)) = ([(0, 0)], [1, 0]) := Option.some.inj h1
    obtain ⟨k, hk, hn⟩ := h small stuck w (by decide) (by decide) hp hr 0 0
      (by unfold World.mapped; rw [(Prod.mk.inj h2).1]; simp)
    rw [(Prod.mk.inj h2).2] at hn
    have hk : k < 2 := hk
    apply hn
    simp only [List.mem_cons, List.not_mem_nil, or_false]
    omega

/-- The complete frame is then handed on as timed out, with no packet missing. -/
theorem C61_timedout : (run small (init small) (stuck ++ [.tick 2000000000])).map
    (fun w => w.log.map (fun x => (x.1.frame, x.1.buf.state, x.1.buf.got))) = some [(0, .timedout, [1, 0])] := by
  decide +kernel

/-- Non-vacuity: a frame of which a packet is missing, while others have been completed. -/
example : (run { small with buffers := 2 } (init { small with buffers := 2 })
    [.packet ⟨0, 1, 7⟩ 0, .packet ⟨1, 0, 9⟩ 1, .packet ⟨0, 0, 8⟩ 2]).map
    (fun w => (w.refused, w.s.map, w.log.length)) = some (0, [(1, 1)], 1) := by decide +kernel

end Verif.Decoder
