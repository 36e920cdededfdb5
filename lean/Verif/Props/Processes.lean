import Verif.Model.Processes
import Verif.Props.ManyFiles
import Verif.Props.Filename
/-! Property C189: processes that write into one directory do not disturb each other, and each frame is in one of the files. -/
namespace Verif.Processes
open Verif.Decoder (Ready)
open Verif.EndToEnd (Setup)
open Verif.EndToEnd.Spec (Fitting ByteOf FileByte off)
open Verif.ManyFiles (Writer fresh)
open Verif.ManyFiles.Spec (one Owned Within Mine InTime row slot)

namespace Spec

/-- `n` processes as they are meant to be: they differ in rank, count each other, and have the same settings for names, with
numbers in them. -/
structure Common (ps : Nat → Proc) (n : Nat) (c : Filename.Cfg) : Prop where
  names : ∀ k, k < n → (ps k).names = c
  procs : ∀ k, k < n → (ps k).setup.geom.procs = n
  rank : ∀ k, k < n → (ps k).setup.geom.rank = k
  usable : Filename.Usable c

/-- What process `k` does of all this. -/
def only (k : Nat) (l : List (Nat × Op)) : List (Nat × Op) := l.filter (fun x => x.1 = k)

/-- The files of process `k` are as if it were alone. -/
def Undisturbed (ps : Nat → Proc) (disk : Disk) (l : List (Nat × Op)) (k i : Nat) : Prop :=
  (run ps (begun disk) l).disk (Filename.generate (ps k).names i) =
    (run ps (begun disk) (only k l)).disk (Filename.generate (ps k).names i)

/-- The files of the frames a process takes have numbers below `m`. -/
def Below (ps : Nat → Proc) (m : Nat) (l : List (Nat × Op)) : Prop :=
  ∀ k r, (k, Op.frame r) ∈ l → EndToEnd.accepts (ps k).setup r.buf.frame = true →
    Placement.fileIndex (ps k).setup.geom (EndToEnd.offset (ps k).setup r.buf.frame) < m

/-- Full statement: in whatever order the processes act, every file of every process is as if it were alone. -/
def statement : Prop :=
  ∀ (ps : Nat → Proc) (n : Nat) (c : Filename.Cfg) (disk : Disk) (l : List (Nat × Op)), Common ps n c → (∀ x ∈ l, x.1 < n) →
    ∀ k i, k < n → i % n = k → Undisturbed ps disk l k i

end Spec
open Spec

/-- A file with a number below `m` that belongs to the process. -/
def Touch (p : Proc) (m i : Nat) : Prop := i % p.setup.geom.procs = p.setup.geom.rank ∧ i < m

/-- The name of such a file. -/
def Its (p : Proc) (m : Nat) (n : List Char) : Prop := ∃ i, Touch p m i ∧ p.name i = n

/-- The process has only such files open. -/
def Inside (p : Proc) (m : Nat) (o : Own) : Prop := Touch p m o.cur ∧ ∀ i, o.prev = some i → Touch p m i

theorem next_le (P a b r : Nat) (ha : a % P = r) (hb : b % P = r) (h : a < b) : a + P ≤ b := by
  rcases Nat.lt_or_ge b (a + P) with h1 | h1
  · exfalso
    have e1 := Nat.div_add_mod a P
    have e2 := Nat.div_add_mod b P
    have : P * (b / P) < P * (a / P + 1) := by rw [Nat.mul_add, Nat.mul_one]; omega
    have h2 : b / P < a / P + 1 := Nat.lt_of_mul_lt_mul_left this
    have h3 : P * (b / P) ≤ P * (a / P) := Nat.mul_le_mul_left _ (by omega)
    omega
  · exact h1

theorem touch_next (p : Proc) (m a b : Nat) (ha : Touch p m a) (hb : Touch p m b) (h : a < b) :
    Touch p m (a + p.setup.geom.procs) := by
  have := next_le _ a b _ ha.1 hb.1 h
  have := hb.2
  exact ⟨by rw [Nat.add_mod_right]; exact ha.1, by omega⟩

/-! ## One process, in two directories that are alike in its files -/

/-- The same process in two directories that are alike in these names; and what it changes of the first, `d`, is in these. -/
structure Like (C : List Char → Prop) (d : Disk) (x y : Own × Disk) : Prop where
  own : x.1 = y.1
  disk : ∀ n, C n → x.2 n = y.2 n
  rest : ∀ n, ¬ C n → x.2 n = d n

theorem like_set (C : List Char → Prop) (d : Disk) (o : Own) (x y : Disk) (n : List Char) (v v' : Option (Layout.Ds Nat)) (hn : C n)
    (hv : v = v') (h1 : ∀ n, C n → x n = y n) (h2 : ∀ n, ¬ C n → x n = d n) : Like C d (o, set x n v) (o, set y n v') := by
  subst hv
  refine ⟨rfl, fun k hk => ?_, fun k hk => ?_⟩
  · show (if k = n then v else x k) = if k = n then v else y k
    split
    · rfl
    · exact h1 k hk
  · show (if k = n then v else x k) = _
    rw [if_neg (fun (e : k = n) => hk (by rw [e]; exact hn))]
    exact h2 k hk

theorem like_create (p : Proc) (m i : Nat) (d : Disk) (x y : Own × Disk) (hi : Touch p m i) (h : Like (Its p m) d x y) :
    Like (Its p m) d (create p x i) (create p y i) := by
  unfold create
  rw [h.own]
  exact like_set _ d _ _ _ _ _ _ ⟨i, hi, rfl⟩ rfl h.disk h.rest

theorem inside_create (p : Proc) (m i : Nat) (x : Own × Disk) (hi : Touch p m i) (h : Inside p m x.1) : Inside p m (create p x i).1 :=
  ⟨hi, fun j hj => by rw [← Option.some.inj hj]; exact h.1⟩

theorem like_upTo (p : Proc) (m : Nat) (d : Disk) : ∀ (k : Nat) (x y : Own × Disk) (a b : Nat), b - a ≤ k → Touch p m a → Touch p m b →
    Inside p m x.1 → Like (Its p m) d x y →
    Like (Its p m) d (createUpTo p x a b).1 (createUpTo p y a b).1 ∧ (createUpTo p x a b).2 = (createUpTo p y a b).2 ∧
      Inside p m (createUpTo p x a b).1.1 := by
  intro k
  induction k with
  | zero =>
    intro x y a b hk ha hb hi h
    rw [createUpTo, dif_neg (by omega), createUpTo, dif_neg (by omega)]
    exact ⟨like_create p m b d x y hb h, rfl, inside_create p m b x hb hi⟩
  | succ k ih =>
    intro x y a b hk ha hb hi h
    rw [createUpTo.eq_def p x a b, createUpTo.eq_def p y a b]
    by_cases hc : a < b ∧ 0 < p.setup.geom.procs
    · rw [dif_pos hc, dif_pos hc]
      by_cases hf : (fresh p.setup p.writer a).isSome = true
      · rw [if_pos hf, if_pos hf]
        exact ih _ _ _ _ (by omega) (touch_next p m a b ha hb hc.1) hb (inside_create p m a x ha hi) (like_create p m a d x y ha h)
      · rw [if_neg hf, if_neg hf]
        exact ⟨like_create p m a d x y ha h, rfl, inside_create p m a x ha hi⟩
    · rw [dif_neg hc, dif_neg hc]
      exact ⟨like_create p m b d x y hb h, rfl, inside_create p m b x hb hi⟩

theorem like_select (p : Proc) (m i : Nat) (d : Disk) (x y : Own × Disk) (hi : Touch p m i) (ho : Inside p m x.1)
    (h : Like (Its p m) d x y) :
    Like (Its p m) d (select p x i).1 (select p y i).1 ∧ (select p x i).2 = (select p y i).2 ∧ Inside p m (select p x i).1.1 := by
  unfold select
  rw [← h.own]
  split
  · exact ⟨h, rfl, ho⟩
  · split
    · exact ⟨h, rfl, ho⟩
    · split
      · next hc => exact like_upTo p m d _ x y _ i (Nat.le_refl _) (touch_next p m _ i ho.1 hi hc) hi ho h
      · exact ⟨h, rfl, ho⟩

theorem like_put (p : Proc) (m i t : Nat) (image : List Nat) (d : Disk) (x y : Own × Disk) (hi : Touch p m i)
    (h : Like (Its p m) d x y) : Like (Its p m) d (put p x i t image) (put p y i t image) := by
  unfold put
  rw [h.own]
  exact like_set _ d _ _ _ _ _ _ ⟨i, hi, rfl⟩ (by rw [h.disk _ ⟨i, hi, rfl⟩]) h.disk h.rest

theorem target_touch (p : Proc) (m f : Nat) (hr : p.setup.geom.rank < p.setup.geom.procs) (hm : target p f < m) :
    Touch p m (target p f) := by
  refine ⟨?_, hm⟩
  unfold target
  exact Placement.C02_file_of_rank _ _ hr

theorem like_acquireAt (p : Proc) (m : Nat) (v : Bool) (i t : Nat) (image : List Nat) (d : Disk) (x y : Own × Disk)
    (hi : v = true → Touch p m i) (ho : Inside p m x.1) (h : Like (Its p m) d x y) :
    Like (Its p m) d (acquireAt p v i t image x) (acquireAt p v i t image y) ∧ Inside p m (acquireAt p v i t image x).1 := by
  unfold acquireAt
  cases v with
  | false => exact ⟨h, ho⟩
  | true =>
    obtain ⟨h1, h2, h3⟩ := like_select p m i d x y (hi rfl) ho h
    rw [if_pos rfl, if_pos rfl]
    unfold putIf
    rw [← h2]
    split
    · exact ⟨like_put p m _ _ _ d _ _ (hi rfl) h1, h3⟩
    · exact ⟨h1, h3⟩

theorem like_acquire (p : Proc) (m f : Nat) (fr : Pipeline.Fr) (d : Disk) (x y : Own × Disk)
    (hi : EndToEnd.accepts p.setup f = true → Touch p m (target p f)) (ho : Inside p m x.1) (h : Like (Its p m) d x y) :
    Like (Its p m) d (acquire p f fr x) (acquire p f fr y) ∧ Inside p m (acquire p f fr x).1 :=
  like_acquireAt p m _ _ _ _ d x y (fun e => hi (Bool.and_eq_true _ _ ▸ e).2) ho h

/-- The same for a process that may have ended. -/
structure LikeO (p : Proc) (m : Nat) (d : Disk) (x y : Option Own × Disk) : Prop where
  own : x.1 = y.1
  disk : ∀ n, Its p m n → x.2 n = y.2 n
  rest : ∀ n, ¬ Its p m n → x.2 n = d n
  inside : ∀ o, x.1 = some o → Inside p m o

theorem like_live (p : Proc) (m : Nat) (d : Disk) (x y : Own × Disk) (h : Like (Its p m) d x y) (ho : Inside p m x.1) :
    LikeO p m d (live x) (live y) :=
  ⟨congrArg some h.own, h.disk, h.rest, fun o e => by rw [← Option.some.inj e]; exact ho⟩

theorem like_dead (p : Proc) (m : Nat) (d x y : Disk) (h1 : ∀ n, Its p m n → x n = y n) (h2 : ∀ n, ¬ Its p m n → x n = d n) :
    LikeO p m d (none, x) (none, y) := ⟨rfl, h1, h2, fun o e => by cases e⟩

/-- Whatever a process does, it does the same in two directories that are alike in its files, and changes no other file. -/
theorem like_act (p : Proc) (m : Nat) (hr : p.setup.geom.rank < p.setup.geom.procs) (hm : p.setup.geom.procs ≤ m) (op : Op)
    (hop : ∀ r, op = .frame r → EndToEnd.accepts p.setup r.buf.frame = true → target p r.buf.frame < m) (o : Option Own) (x y : Disk) (ho : ∀ z, o = some z → Inside p m z)
    (h : ∀ n, Its p m n → x n = y n) : LikeO p m x (act p (o, x) op) (act p (o, y) op) := by
  cases op with
  | start =>
    have ht : Touch p m p.setup.geom.rank := ⟨Nat.mod_eq_of_lt hr, by omega⟩
    have := like_set (Its p m) x ⟨p.setup.geom.rank, none⟩ x y (p.name p.setup.geom.rank) _ _ ⟨_, ht, rfl⟩
      (rfl : fresh p.setup p.writer p.setup.geom.rank = _) h (fun _ _ => rfl)
    exact like_live p m x _ _ this ⟨ht, fun i hi => by cases hi⟩
  | frame r =>
    cases o with
    | none => exact like_dead p m x x y h (fun _ _ => rfl)
    | some o =>
      have ho := ho o rfl
      have hl : Like (Its p m) x (o, x) (o, y) := ⟨rfl, h, fun _ _ => rfl⟩
      show LikeO p m x (arrive p r.buf.frame (o, x) (EndToEnd.sent p.setup r)) (arrive p r.buf.frame (o, y) (EndToEnd.sent p.setup r))
      cases EndToEnd.sent p.setup r with
      | none => exact like_dead p m x x y h (fun _ _ => rfl)
      | some z =>
        cases z with
        | pushed f =>
          obtain ⟨h1, h2⟩ := like_acquire p m _ f x _ _ (fun e => target_touch p m _ hr (hop r rfl e)) ho hl
          exact like_live p m x _ _ h1 h2
        | dropped => exact like_live p m x _ _ hl ho
        | threw => exact like_dead p m x x y h (fun _ _ => rfl)
        | ub => exact like_dead p m x x y h (fun _ _ => rfl)

/-! ## All processes -/

/-- Different processes have different names for their files. -/
theorem its_apart (ps : Nat → Proc) (n : Nat) (c : Filename.Cfg) (m : Nat) (hc : Common ps n c) (hm : m + c.start ≤ 1000000) (j k : Nat)
    (hj : j < n) (hk : k < n) (name : List Char) (h1 : Its (ps j) m name) (h2 : Its (ps k) m name) : j = k := by
  obtain ⟨a, ⟨ha, ha'⟩, ha2⟩ := h1
  obtain ⟨b, ⟨hb, hb'⟩, hb2⟩ := h2
  unfold Proc.name at ha2 hb2
  rw [hc.names j hj] at ha2
  rw [hc.names k hk] at hb2
  have := Filename.C03_partial c a b hc.usable (by omega) (by omega) (by rw [ha2, hb2])
  rw [hc.procs j hj, hc.rank j hj] at ha
  rw [hc.procs k hk, hc.rank k hk] at hb
  rw [← ha, ← hb, this]

/-- The two runs of process `k`, with the others and alone. -/
structure Pair (ps : Nat → Proc) (n m k : Nat) (W V : World) : Prop where
  own : W.own k = V.own k
  disk : ∀ name, Its (ps k) m name → W.disk name = V.disk name
  inside : ∀ j, j < n → ∀ o, W.own j = some o → Inside (ps j) m o

theorem pair_run (ps : Nat → Proc) (n : Nat) (c : Filename.Cfg) (m : Nat) (hc : Common ps n c) (hn : n ≤ m) (hm : m + c.start ≤ 1000000)
    (k : Nat) (hk : k < n) : ∀ (l : List (Nat × Op)), (∀ x ∈ l, x.1 < n) → Below ps m l → ∀ (W V : World), Pair ps n m k W V →
      Pair ps n m k (run ps W l) (run ps V (only k l)) := by
  intro l
  induction l with
  | nil => exact fun _ _ W V h => h
  | cons x l ih =>
    intro hl hb W V h
    obtain ⟨j, op⟩ := x
    have hj : j < n := hl (j, op) List.mem_cons_self
    have hrank : (ps j).setup.geom.rank < (ps j).setup.geom.procs := by rw [hc.rank j hj, hc.procs j hj]; exact hj
    have hprocs : (ps j).setup.geom.procs ≤ m := by rw [hc.procs j hj]; exact hn
    have hop : ∀ r, op = .frame r → EndToEnd.accepts (ps j).setup r.buf.frame = true → target (ps j) r.buf.frame < m := by
      intro r e
      exact hb j r (by rw [e]; exact List.mem_cons_self)
    have ih := ih (fun x hx => hl x (List.mem_cons_of_mem _ hx)) (fun k r hx => hb k r (List.mem_cons_of_mem _ hx))
    show Pair ps n m k (run ps (step ps W j op) l) _
    have hself := like_act (ps j) m hrank hprocs op hop (W.own j) W.disk W.disk (h.inside j hj) (fun _ _ => rfl)
    have hin : ∀ i, i < n → ∀ o, (step ps W j op).own i = some o → Inside (ps i) m o := by
      intro i hi o ho
      change (if i = j then (act (ps j) (W.own j, W.disk) op).1 else W.own i) = some o at ho
      by_cases he : i = j
      · rw [if_pos he] at ho
        rw [he]
        exact hself.inside o ho
      · rw [if_neg he] at ho
        exact h.inside i hi o ho
    by_cases he : j = k
    · subst he
      have hf : only j ((j, op) :: l) = (j, op) :: only j l := by simp [only]
      rw [hf]
      show Pair ps n m j _ (run ps (step ps V j op) (only j l))
      refine ih _ _ ⟨?_, ?_, hin⟩
      · have := like_act (ps j) m hrank hprocs op hop (W.own j) W.disk V.disk (h.inside j hj) h.disk
        show (if j = j then _ else _) = if j = j then _ else _
        rw [if_pos rfl, if_pos rfl, this.own, h.own]
      · intro name hname
        have := like_act (ps j) m hrank hprocs op hop (W.own j) W.disk V.disk (h.inside j hj) h.disk
        show (act (ps j) (W.own j, W.disk) op).2 name = (act (ps j) (V.own j, V.disk) op).2 name
        rw [this.disk name hname, h.own]
    · have hf : only k ((j, op) :: l) = only k l := by simp [only, he]
      rw [hf]
      refine ih _ _ ⟨?_, ?_, hin⟩
      · show (if k = j then _ else W.own k) = _
        rw [if_neg (fun e => he e.symm)]
        exact h.own
      · intro name hname
        show (act (ps j) (W.own j, W.disk) op).2 name = _
        rw [hself.rest name (fun h' => he (its_apart ps n c m hc hm j k hj hk name h' hname))]
        exact h.disk name hname

/-- As long as the numbers in the names stay below one million: every file of every process is as if it were alone, in whatever
order they act, and whatever happens to the others. -/
theorem C189_partial (ps : Nat → Proc) (n : Nat) (c : Filename.Cfg) (m : Nat) (disk : Disk) (l : List (Nat × Op)) (hc : Common ps n c)
    (hl : ∀ x ∈ l, x.1 < n) (hn : n ≤ m) (hm : m + c.start ≤ 1000000) (hb : Below ps m l) (k i : Nat) (hk : k < n) (hi : i % n = k)
    (him : i < m) : Undisturbed ps disk l k i := by
  have := pair_run ps n c m hc hn hm k hk l hl hb (begun disk) (begun disk)
    ⟨rfl, fun _ _ => rfl, fun j _ o ho => by cases ho⟩
  exact this.disk _ ⟨i, ⟨by rw [hc.procs k hk, hc.rank k hk]; exact hi, him⟩, rfl⟩

/-! ## Each frame in its file -/

/-- A process, and the same with its files found by their numbers (Model/ManyFiles). -/
structure Sim (p : Proc) (m : Nat) (st : ManyFiles.St) (x : Own × Disk) : Prop where
  cur : st.cur = x.1.cur
  prev : st.prev = x.1.prev
  files : ∀ i, Touch p m i → x.2 (p.name i) = st.files i
  inside : Inside p m x.1

/-- The names of its files are different. -/
def Apart (p : Proc) (m : Nat) : Prop := ∀ i j, Touch p m i → Touch p m j → p.name i = p.name j → i = j

theorem sim_set (p : Proc) (m i : Nat) (hp : Apart p m) (hi : Touch p m i) (files : Nat → Option (Layout.Ds Nat)) (x : Disk)
    (v v' : Option (Layout.Ds Nat)) (hv : v = v') (h : ∀ j, Touch p m j → x (p.name j) = files j) (j : Nat) (hj : Touch p m j) :
    set x (p.name i) v (p.name j) = ManyFiles.set files i v' j := by
  subst hv
  unfold set ManyFiles.set
  by_cases e : j = i
  · rw [e, if_pos rfl, if_pos rfl]
  · rw [if_neg e, if_neg (fun e' => e (hp j i hj hi e'))]
    exact h j hj

theorem sim_create (p : Proc) (m i : Nat) (hp : Apart p m) (st : ManyFiles.St) (x : Own × Disk) (hi : Touch p m i) (h : Sim p m st x) :
    Sim p m (ManyFiles.create p.setup p.writer st i) (create p x i) :=
  ⟨rfl, congrArg some h.cur, sim_set p m i hp hi _ _ _ _ rfl h.files, inside_create p m i x hi h.inside⟩

theorem sim_upTo (p : Proc) (m : Nat) (hp : Apart p m) : ∀ (k : Nat) (st : ManyFiles.St) (x : Own × Disk) (a b : Nat), b - a ≤ k →
    Touch p m a → Touch p m b → Sim p m st x →
    Sim p m (ManyFiles.createUpTo p.setup p.writer st a b).1 (createUpTo p x a b).1 ∧
      (ManyFiles.createUpTo p.setup p.writer st a b).2 = (createUpTo p x a b).2 := by
  intro k
  induction k with
  | zero =>
    intro st x a b hk ha hb h
    rw [createUpTo, dif_neg (by omega), ManyFiles.createUpTo, dif_neg (by omega)]
    exact ⟨sim_create p m b hp st x hb h, rfl⟩
  | succ k ih =>
    intro st x a b hk ha hb h
    rw [createUpTo.eq_def p x a b, ManyFiles.createUpTo.eq_def p.setup p.writer st a b]
    by_cases hc : a < b ∧ 0 < p.setup.geom.procs
    · rw [dif_pos hc, dif_pos hc]
      by_cases hf : (fresh p.setup p.writer a).isSome = true
      · rw [if_pos hf, if_pos hf]
        exact ih _ _ _ _ (by omega) (touch_next p m a b ha hb hc.1) hb (sim_create p m a hp st x ha h)
      · rw [if_neg hf, if_neg hf]
        exact ⟨sim_create p m a hp st x ha h, rfl⟩
    · rw [dif_neg hc, dif_neg hc]
      exact ⟨sim_create p m b hp st x hb h, rfl⟩

theorem sim_select (p : Proc) (m i : Nat) (hp : Apart p m) (st : ManyFiles.St) (x : Own × Disk) (hi : Touch p m i) (h : Sim p m st x) :
    Sim p m (ManyFiles.select p.setup p.writer st i).1 (select p x i).1 ∧
      (ManyFiles.select p.setup p.writer st i).2 = (select p x i).2 := by
  unfold select ManyFiles.select
  rw [h.cur, h.prev]
  split
  · exact ⟨h, rfl⟩
  · split
    · exact ⟨h, rfl⟩
    · split
      · next hc => exact sim_upTo p m hp _ st x _ i (Nat.le_refl _) (touch_next p m _ i h.inside.1 hi hc) hi h
      · exact ⟨h, rfl⟩

theorem sim_put (p : Proc) (m i t : Nat) (image : List Nat) (hp : Apart p m) (st : ManyFiles.St) (x : Own × Disk) (hi : Touch p m i)
    (h : Sim p m st x) : Sim p m (ManyFiles.put p.setup st i t image) (put p x i t image) :=
  ⟨h.cur, h.prev, sim_set p m i hp hi _ _ _ _ (by rw [h.files i hi]) h.files, h.inside⟩

/-- `ManyFiles.acquire` with its parts named. -/
def acquireBy (p : Proc) (ok : Bool) (i t : Nat) (image : List Nat) (st : ManyFiles.St) : ManyFiles.St :=
  if ok then ManyFiles.putIf p.setup (ManyFiles.select p.setup p.writer st i) i t image else st

theorem sim_acquireAt (p : Proc) (m : Nat) (v : Bool) (i t : Nat) (image : List Nat) (hp : Apart p m) (st : ManyFiles.St) (x : Own × Disk)
    (hi : v = true → Touch p m i) (h : Sim p m st x) : Sim p m (acquireBy p v i t image st) (acquireAt p v i t image x) := by
  unfold acquireAt acquireBy
  cases v with
  | false => exact h
  | true =>
    obtain ⟨h1, h2⟩ := sim_select p m i hp st x (hi rfl) h
    rw [if_pos rfl, if_pos rfl]
    unfold putIf ManyFiles.putIf
    rw [h2]
    split
    · exact sim_put p m _ _ _ hp _ _ (hi rfl) h1
    · exact h1

theorem sim_acquire (p : Proc) (m f : Nat) (fr : Pipeline.Fr) (hp : Apart p m) (st : ManyFiles.St) (x : Own × Disk)
    (hi : EndToEnd.accepts p.setup f = true → Touch p m (target p f)) (h : Sim p m st x) :
    Sim p m (ManyFiles.acquire p.setup p.writer f fr st) (acquire p f fr x) :=
  sim_acquireAt p m _ _ _ _ hp st x (fun e => hi (Bool.and_eq_true _ _ ▸ e).2) h

theorem sim_deliver (p : Proc) (m : Nat) (hp : Apart p m) (hr : p.setup.geom.rank < p.setup.geom.procs) (r : Ready)
    (hop : EndToEnd.accepts p.setup r.buf.frame = true → target p r.buf.frame < m) (st st' : ManyFiles.St) (x : Own × Disk)
    (h : Sim p m st x) (hd : ManyFiles.deliver p.setup p.writer st r = some st') :
    ∃ y, act p (live x) (.frame r) = live y ∧ Sim p m st' y := by
  unfold ManyFiles.deliver at hd
  show ∃ y, arrive p r.buf.frame x (EndToEnd.sent p.setup r) = live y ∧ _
  cases hs : EndToEnd.sent p.setup r with
  | none => rw [hs] at hd; cases hd
  | some z =>
    rw [hs, Option.bind_some] at hd
    cases z with
    | pushed f =>
      have hd : ManyFiles.acquire p.setup p.writer r.buf.frame f st = st' := Option.some.inj hd
      rw [← hd]
      exact ⟨_, rfl, sim_acquire p m _ f hp st x (fun e => target_touch p m _ hr (hop e)) h⟩
    | dropped =>
      have hd : st = st' := Option.some.inj hd
      rw [← hd]
      exact ⟨x, rfl, h⟩
    | threw => cases hd
    | ub => cases hd

/-- A process alone, that does not fail. -/
theorem sim_run (ps : Nat → Proc) (k m : Nat) (hp : Apart (ps k) m) (hr : (ps k).setup.geom.rank < (ps k).setup.geom.procs) :
    ∀ (l : List Ready), (∀ r ∈ l, EndToEnd.accepts (ps k).setup r.buf.frame = true → target (ps k) r.buf.frame < m) →
      ∀ (st st' : ManyFiles.St) (W : World) (x : Own × Disk), W.own k = some x.1 → W.disk = x.2 → Sim (ps k) m st x →
        ManyFiles.deliverAll (ps k).setup (ps k).writer st l = some st' →
        ∃ y, (run ps W (l.map (fun r => (k, Op.frame r)))).disk = y.2 ∧ Sim (ps k) m st' y := by
  intro l
  induction l with
  | nil =>
    intro _ st st' W x _ h2 h3 h4
    rw [← Option.some.inj h4]
    exact ⟨x, h2, h3⟩
  | cons r l ih =>
    intro hl st st' W x h1 h2 h3 h4
    change (ManyFiles.deliver (ps k).setup (ps k).writer st r).bind (fun st => ManyFiles.deliverAll (ps k).setup (ps k).writer st l) = some st' at h4
    cases hd : ManyFiles.deliver (ps k).setup (ps k).writer st r with
    | none => rw [hd] at h4; cases h4
    | some st1 =>
      rw [hd, Option.bind_some] at h4
      obtain ⟨y, hy, hsim⟩ := sim_deliver (ps k) m hp hr r (hl r List.mem_cons_self) st st1 x h3 hd
      have he : (W.own k, W.disk) = live x := by rw [h1, h2]; rfl
      refine ih (fun r hr => hl r (List.mem_cons_of_mem _ hr)) st1 st' (step ps W k (.frame r)) y ?_ ?_ hsim h4
      · show (if k = k then (act (ps k) (W.own k, W.disk) (.frame r)).1 else _) = _
        rw [if_pos rfl, he, hy]
        rfl
      · show (act (ps k) (W.own k, W.disk) (.frame r)).2 = _
        rw [he, hy]
        rfl

/-- Every frame that comes to the process it is for is in a file in the directory, byte by byte, whatever the other processes do
meanwhile: with the conditions of C135_files_partial for this process only. -/
theorem C189_frames (ps : Nat → Proc) (n : Nat) (c : Filename.Cfg) (m : Nat) (disk : Disk) (l : List (Nat × Op)) (hc : Common ps n c)
    (hl : ∀ x ∈ l, x.1 < n) (hn : n ≤ m) (hm : m + c.start ≤ 1000000) (hb : Below ps m l) (k : Nat) (hk : k < n)
    (wd h : Nat) (hf : Fitting (one (ps k).setup) wd h) (hK : (ps k).setup.geom.bpf ≠ 0) (hsz : (ps k).writer.size = 2)
    (hto : (ps k).writer.unlimited = true ∨ 0 < (ps k).writer.toWrite) (evs : List Decoder.Spec.Ev) (W : Decoder.Spec.World)
    (hp : Decoder.Spec.Every (ps k).setup.rx (Decoder.Spec.Regular (ps k).setup.rx) (Decoder.Spec.init (ps k).setup.rx) evs)
    (hrun : Decoder.Spec.run (ps k).setup.rx (Decoder.Spec.init (ps k).setup.rx) evs = some W)
    (hbits : ∀ x ∈ W.log, ManyFiles.Bits (ps k).setup x.1.frame)
    (hw : ∀ x ∈ W.log, Mine (ps k).setup x.1.frame → Within (ps k).setup (ps k).writer (off (ps k).setup x.1.frame))
    (ho : only k l = (k, Op.start) :: W.log.map (fun x => (k, Op.frame x.1))) :
    ∀ l1 x l2, W.log = l1 ++ x :: l2 → (∀ y ∈ l2, y.1.frame ≠ x.1.frame) → Mine (ps k).setup x.1.frame →
      InTime (ps k).setup l1 x.1.frame →
        ∃ i d, i % n = k ∧ i = row (ps k).setup (off (ps k).setup x.1.frame) * n + k ∧
          (run ps (begun disk) l).disk (Filename.generate c i) = some d ∧
          ∀ q, q < wd * h * 2 → ∃ v, FileByte (ps k).setup wd d (slot (ps k).setup (off (ps k).setup x.1.frame)) q v ∧
            ByteOf (ps k).setup.rx.size (ps k).setup.bytes x.2 q v := by
  have hrank : (ps k).setup.geom.rank < (ps k).setup.geom.procs := by rw [hc.rank k hk, hc.procs k hk]; exact hk
  have hapart : Apart (ps k) m := by
    intro i j hi hj he
    unfold Proc.name at he
    rw [hc.names k hk] at he
    have h1 := hi.2
    have h2 := hj.2
    exact Filename.C03_partial c i j hc.usable (by omega) (by omega) he
  obtain ⟨st, hst, hall⟩ := ManyFiles.C135_files_partial (ps k).setup (ps k).writer wd h hf hK hrank hsz hto
    (fun i => disk ((ps k).name i)) evs W hp hrun hbits hw
  have hmem : ∀ r ∈ W.log.map (·.1), EndToEnd.accepts (ps k).setup r.buf.frame = true → target (ps k) r.buf.frame < m := by
    intro r hr
    obtain ⟨x, hx, he⟩ := List.mem_map.1 hr
    refine hb k r (List.mem_filter (p := fun x => decide (x.1 = k)).1 ?_).1
    show (k, Op.frame r) ∈ only k l
    rw [ho]
    exact List.mem_cons_of_mem _ (List.mem_map.2 ⟨x, hx, by rw [he]⟩)
  have htouch : Touch (ps k) m (ps k).setup.geom.rank := ⟨Nat.mod_eq_of_lt hrank, by rw [hc.rank k hk]; omega⟩
  obtain ⟨y, hy, hsim⟩ := sim_run ps k m hapart hrank (W.log.map (·.1)) hmem _ st (step ps (begun disk) k .start)
    (⟨(ps k).setup.geom.rank, none⟩, set disk ((ps k).name (ps k).setup.geom.rank) (fresh (ps k).setup (ps k).writer (ps k).setup.geom.rank))
    (by show (if k = k then _ else _) = _; rw [if_pos rfl]; rfl) rfl
    ⟨rfl, rfl, sim_set (ps k) m _ hapart htouch _ _ _ _ rfl (fun _ _ => rfl), htouch, fun i hi => by cases hi⟩ hst
  intro l1 x l2 hlog hlast hmine hin
  obtain ⟨d, hd, hbytes⟩ := hall l1 x l2 hlog hlast hmine hin
  have hx : x ∈ W.log := by rw [hlog]; simp
  have hgood := (Decoder.run_inv (ps k).setup.rx hf.accepted evs W hp hrun).log x hx
  have hnum : ManyFiles.Spec.number (ps k).setup (row (ps k).setup (off (ps k).setup x.1.frame)) =
      row (ps k).setup (off (ps k).setup x.1.frame) * n + k := by
    unfold ManyFiles.Spec.number
    rw [hc.procs k hk, hc.rank k hk]
  have hmod : (row (ps k).setup (off (ps k).setup x.1.frame) * n + k) % n = k := by
    rw [Nat.mul_comm, Nat.mul_add_mod, Nat.mod_eq_of_lt hk]
  have hlt : row (ps k).setup (off (ps k).setup x.1.frame) * n + k < m := by
    have hfr : x.1.buf.frame = x.1.frame := hgood.1.frame
    have hpl := ManyFiles.plain_of (ps k).setup x hfr hf.adj hrank (hbits x hx)
    have := hmem x.1 (List.mem_map.2 ⟨x, hx, rfl⟩)
    unfold target at this
    rw [hfr] at this
    have := this (hpl.2.1 hmine).1
    rw [(hpl.2.1 hmine).2, ManyFiles.index_eq (ps k).setup hf.fpb hK, hnum] at this
    exact this
  refine ⟨_, d, hmod, rfl, ?_, hbytes⟩
  have hu := C189_partial ps n c m disk l hc hl hn hm hb k _ hk hmod hlt
  unfold Undisturbed at hu
  rw [ho] at hu
  rw [hc.names k hk] at hu
  rw [hu]
  have hrest : (run ps (begun disk) ((k, Op.start) :: W.log.map (fun x => (k, Op.frame x.1)))).disk = y.2 := by
    rw [← hy, List.map_map]
    rfl
  rw [hrest, ← hnum]
  have := hsim.files (ManyFiles.Spec.number (ps k).setup (row (ps k).setup (off (ps k).setup x.1.frame)))
    ⟨by rw [hnum, hc.procs k hk, hc.rank k hk]; exact hmod, by rw [hnum]; exact hlt⟩
  unfold Proc.name at this
  rw [hc.names k hk] at this
  rw [this]
  exact hd

/-- There is exactly one process that a frame is for. -/
theorem C189_one (ps : Nat → Proc) (n : Nat) (c : Filename.Cfg) (hc : Common ps n c) (hn : 0 < n) (b : Nat) (a : Int)
    (hfpb : ∀ k, k < n → (ps k).setup.geom.fpb = b) (hadj : ∀ k, k < n → (ps k).setup.adj = a) (f : Nat) (hf : f < 2 ^ 31)
    (h0 : 0 ≤ (f : Int) + a) : ∃ k, k < n ∧ Mine (ps k).setup f ∧ ∀ j, j < n → Mine (ps j).setup f → j = k := by
  have key : ∀ k, k < n → (Owned (ps k).setup (off (ps k).setup f) ↔ ((f : Int) + a).toNat / b % n = k) := by
    intro k hk
    unfold Owned off
    rw [hfpb k hk, hadj k hk, hc.procs k hk, hc.rank k hk]
  have hlt := Nat.mod_lt (((f : Int) + a).toNat / b) hn
  refine ⟨_, hlt, ⟨hf, by rw [hadj _ hlt]; exact h0, (key _ hlt).2 rfl⟩, fun j hj hm => ((key j hj).1 hm.2.2).symm⟩

/-! ## Two processes -/

/-- Two processes with one frame to a block, and one block to a file. -/
def exProc (start : Nat) (numbers : Bool) (k : Nat) : Proc where
  setup := { EndToEnd.exSetup with geom := ⟨k, 2, 1, 1⟩ }
  writer := ⟨false, 2, 2⟩
  names := ⟨"run".toList, [], [], ".h5".toList, numbers, start⟩

/-- The buffers that a receiver hands on. -/
def exReady (evs : List Decoder.Spec.Ev) : List Ready :=
  ((Decoder.Spec.run EndToEnd.exSetup.rx (Decoder.Spec.init EndToEnd.exSetup.rx) evs).map (fun W => W.log.map (·.1))).getD []

/-- Frames 0 and 2 come to the first process, frame 1 to the second, which starts later. -/
def exOrder : List (Nat × Op) :=
  (0, .start) :: (exReady [.packet ⟨0, 0, 10⟩ 0, .packet ⟨0, 1, 20⟩ 1]).map (fun r => (0, .frame r)) ++
  (1, .start) :: (exReady [.packet ⟨1, 0, 30⟩ 0, .packet ⟨1, 1, 40⟩ 1]).map (fun r => (1, .frame r)) ++
  (exReady [.packet ⟨2, 0, 50⟩ 0, .packet ⟨2, 1, 60⟩ 1]).map (fun r => (0, .frame r))

/-- The pixels of the only frame in a file. -/
def pixels (start : Nat) (numbers : Bool) (l : List (Nat × Op)) (name : String) : Option (List (Option (List Nat))) :=
  ((run (exProc start numbers) (begun (fun _ => none)) l).disk name.toList).map
    (fun d => [[0, 0, 0], [0, 0, 1]].map (Layout.element 0 (Pipeline.view EndToEnd.exSetup.codec true d)))

example : pixels 0 true exOrder "run_000000.h5" = some [some [10, 11], some [20, 21]] ∧
    pixels 0 true exOrder "run_000001.h5" = some [some [30, 31], some [40, 41]] ∧
    pixels 0 true exOrder "run_000002.h5" = some [some [50, 51], some [60, 61]] ∧ pixels 0 true exOrder "run_000003.h5" = none := by
  decide +kernel

theorem exCommon (start : Nat) : Common (exProc start true) 2 (exProc start true 0).names where
  names := fun _ _ => rfl
  procs := fun _ _ => rfl
  rank := fun _ _ => rfl
  usable := ⟨rfl, Or.inl (by show "run".toList ≠ []; decide)⟩

/-- Without numbers there is one file, and what is in it is what came last. -/
theorem C189_unnumbered : pixels 0 false exOrder "run.h5" = some [some [50, 51], some [60, 61]] ∧
    pixels 0 false (exOrder.take 3) "run.h5" = some [some [0, 0], some [0, 0]] := by
  decide +kernel

/-- From one million on, ten files have the same name: the frame of the first process is gone when the second starts. -/
theorem C189_lost : pixels 1000000 true (only 0 (exOrder.take 3)) "run_100000.h5" = some [some [10, 11], some [20, 21]] ∧
    pixels 1000000 true (exOrder.take 3) "run_100000.h5" = some [some [0, 0], some [0, 0]] := by
  decide +kernel

/-- The property is false of the code. -/
theorem C189_violated : ¬ statement := by
  intro h
  have h1 := h (exProc 1000000 true) 2 _ (fun _ => none) (exOrder.take 3) (exCommon _) (by decide +kernel) 0 0 (by decide) rfl
  unfold Undisturbed at h1
  have hn : Filename.generate (exProc 1000000 true 0).names 0 = "run_100000.h5".toList := by decide +kernel
  rw [hn] at h1
  have h2 : pixels 1000000 true (exOrder.take 3) "run_100000.h5" = pixels 1000000 true (only 0 (exOrder.take 3)) "run_100000.h5" := by
    unfold pixels
    rw [h1]
  rw [C189_lost.1, C189_lost.2] at h2
  exact absurd h2 (by decide)

def exBelow (m : Nat) : Nat × Op → Bool
  | (_, .start) => true
  | (k, .frame r) => decide (Placement.fileIndex (exProc 0 true k).setup.geom (EndToEnd.offset (exProc 0 true k).setup r.buf.frame) < m)

example : Below (exProc 0 true) 10 exOrder ∧ (∀ x ∈ exOrder, x.1 < 2) ∧ Fitting (one (exProc 0 true 1).setup) 2 1 ∧
    Mine (exProc 0 true 1).setup 1 ∧ ¬ Mine (exProc 0 true 1).setup 2 := by
  refine ⟨?_, by decide +kernel, ?_, ?_⟩
  · intro k r h ha
    have hall : exOrder.all (exBelow 10) = true := by decide +kernel
    have := List.all_eq_true.1 hall _ h
    exact of_decide_eq_true this
  · exact ⟨by decide, rfl, rfl, by decide, by decide, by decide, by decide, rfl, rfl, EndToEnd.exFitting.way, EndToEnd.exFitting.last,
      EndToEnd.exFitting.comp, EndToEnd.exFitting.lossless, EndToEnd.exFitting.bounded, by decide, by decide, rfl, by decide⟩
  · unfold Mine Owned off
    decide

end Verif.Processes
