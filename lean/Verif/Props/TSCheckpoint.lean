/-
C45: time-stepper checkpoints survive crashes, `app/common/ts_util.c`.
-/
import Mathlib.Data.List.Chain
import Verif.Model.TSCheckpoint

namespace Tandem.TSCheckpoint

variable {A B C : Type}

/-- The file system after the given micro-operations. -/
def exec (fs : FS A B C) (ops : List (Op A B C)) : FS A B C := ops.foldl FS.apply fs

/-- The data a restart gets from a snapshot. -/
def Snap.data (s : Snap A B C) : A × B × C := (s.ts, s.impl, s.vec)

theorem exec_append (fs : FS A B C) (a b : List (Op A B C)) : exec fs (a ++ b) = exec (exec fs a) b := by
  simp [exec]

/-- Directories the operation does not touch. -/
theorem writeOps_other (fs : FS A B C) (i j : Nat) (s : Snap A B C) (m : Nat) (h : j ≠ i) :
    (exec fs ((writeOps i s).take m)).dirs j = fs.dirs j := by
  have key : ∀ (ops : List (Op A B C)) (fs : FS A B C),
      (∀ o ∈ ops, ∀ fs : FS A B C, (fs.apply o).dirs j = fs.dirs j) → (exec fs ops).dirs j = fs.dirs j := by
    intro ops
    induction ops with
    | nil => intro fs _; rfl
    | cons o os ih =>
      intro fs ho
      show (exec (fs.apply o) os).dirs j = _
      rw [ih _ (fun o' h' => ho o' (List.mem_cons_of_mem _ h')), ho o List.mem_cons_self]
  apply key
  intro o ho fs
  have ho := List.mem_of_mem_take ho
  simp only [writeOps, List.mem_cons, List.not_mem_nil, or_false] at ho
  rcases ho with rfl | rfl | rfl | rfl | rfl | rfl | rfl | rfl | rfl | rfl | rfl <;>
    simp [FS.apply, FS.modify, h]

theorem writeOps_full (fs : FS A B C) (i : Nat) (s : Snap A B C) :
    load (exec fs (writeOps i s)) i = some s.data ∧ (exec fs (writeOps i s)).last = .complete i ∧
    ((exec fs (writeOps i s)).dirs i).made = true := by
  simp [exec, writeOps, FS.apply, FS.modify, load, Snap.data]

/-- While the directory is being written, `last_checkpoint.txt` is as before; it is then unnamed, with the
directory already complete; and finally names the directory. -/
theorem writeOps_last (fs : FS A B C) (i : Nat) (s : Snap A B C) (m : Nat) :
    let fs' := exec fs ((writeOps i s).take m)
    (m ≤ 9 ∧ fs'.last = fs.last) ∨
    (m = 10 ∧ fs'.last = .partialFile ∧ load fs' i = some s.data ∧ (fs'.dirs i).made = true) ∨
    (11 ≤ m ∧ fs'.last = .complete i ∧ load fs' i = some s.data ∧ (fs'.dirs i).made = true) := by
  intro fs'
  by_cases h : 11 ≤ m
  · right; right
    have : (writeOps i s).take m = writeOps i s := List.take_of_length_le (by simpa [writeOps] using h)
    simp only [fs', this]
    obtain ⟨a, b, c⟩ := writeOps_full fs i s
    exact ⟨h, b, a, c⟩
  · have hm : m = 0 ∨ m = 1 ∨ m = 2 ∨ m = 3 ∨ m = 4 ∨ m = 5 ∨ m = 6 ∨ m = 7 ∨ m = 8 ∨ m = 9 ∨ m = 10 := by omega
    rcases hm with rfl | rfl | rfl | rfl | rfl | rfl | rfl | rfl | rfl | rfl | rfl
    all_goals try (left; exact ⟨by omega, by simp [fs', exec, writeOps, FS.apply, FS.modify]⟩)
    right; left
    refine ⟨rfl, ?_, ?_, ?_⟩ <;> simp [fs', exec, writeOps, FS.apply, FS.modify, load, Snap.data]

/-- Consecutive checkpoints go to different directories, and the first to another one than `i0`. -/
def Alternating (i0 : Option Nat) : List (Nat × Snap A B C) → Prop
  | [] => True
  | (i, _) :: cks => i0 ≠ some i ∧ Alternating (some i) cks

theorem runOps_length (cks : List (Nat × Snap A B C)) : (runOps cks).length = 11 * cks.length := by
  induction cks with
  | nil => rfl
  | cons p cks ih =>
    have e : runOps (p :: cks) = writeOps p.1 p.2 ++ runOps cks := rfl
    rw [e, List.length_append, ih, List.length_cons]; simp [writeOps]; omega

theorem take_runOps (cks : List (Nat × Snap A B C)) (m : Nat) :
    (∃ p, cks[m / 11]? = some p ∧
      (runOps cks).take m = runOps (cks.take (m / 11)) ++ (writeOps p.1 p.2).take (m % 11)) ∨
    (cks.length ≤ m / 11 ∧ (runOps cks).take m = runOps cks) := by
  by_cases h : m / 11 < cks.length
  · left
    obtain ⟨p, hp⟩ : ∃ p, cks[m / 11]? = some p := ⟨_, List.getElem?_eq_getElem h⟩
    refine ⟨p, hp, ?_⟩
    have hs : cks = cks.take (m / 11) ++ p :: cks.drop (m / 11 + 1) := by
      have : cks[m / 11] = p := by rw [List.getElem?_eq_getElem h] at hp; simpa using hp
      rw [← this, ← List.drop_eq_getElem_cons h, List.take_append_drop]
    have hl : (runOps (cks.take (m / 11))).length = 11 * (m / 11) := by
      rw [runOps_length, List.length_take, Nat.min_eq_left (by omega)]
    conv => lhs; rw [hs]
    have e : runOps (cks.take (m / 11) ++ p :: cks.drop (m / 11 + 1))
        = runOps (cks.take (m / 11)) ++ (writeOps p.1 p.2 ++ runOps (cks.drop (m / 11 + 1))) := by
      simp [runOps]
    have hmod : m - 11 * (m / 11) = m % 11 := by omega
    rw [e, List.take_append, hl, hmod, List.take_of_length_le (by rw [hl]; omega),
      List.take_append_of_le_length (by simp [writeOps]; omega)]
  · right
    refine ⟨by omega, List.take_of_length_le ?_⟩
    rw [runOps_length]; omega

/-- The state after complete checkpoints: named is the last one, and it can be loaded. -/
theorem runOps_full (fs : FS A B C) (cks : List (Nat × Snap A B C)) (p : Nat × Snap A B C)
    (h : cks.getLast? = some p) :
    (exec fs (runOps cks)).last = .complete p.1 ∧ load (exec fs (runOps cks)) p.1 = some p.2.data ∧
    ((exec fs (runOps cks)).dirs p.1).made = true := by
  induction cks generalizing fs with
  | nil => simp at h
  | cons c cks ih =>
    have e : exec fs (runOps (c :: cks)) = exec (exec fs (writeOps c.1 c.2)) (runOps cks) := by
      rw [← exec_append]; rfl
    rw [e]
    cases cks with
    | nil =>
      simp at h; subst h
      obtain ⟨a, b, d⟩ := writeOps_full fs c.1 c.2
      exact ⟨b, a, d⟩
    | cons c' cks' => exact ih _ (by simpa using h)

theorem alternating_get (i0 : Option Nat) (cks : List (Nat × Snap A B C)) (h : Alternating i0 cks) (j : Nat)
    (p : Nat × Snap A B C) (hp : cks[j]? = some p) :
    (match j with | 0 => i0 | j' + 1 => (cks[j']?).map (·.1)) ≠ some p.1 := by
  induction cks generalizing i0 j with
  | nil => simp at hp
  | cons c cks ih =>
    obtain ⟨i, s⟩ := c
    cases j with
    | zero => simp at hp; subst hp; exact h.1
    | succ j =>
      have := ih (some i) h.2 j (by simpa using hp)
      cases j with
      | zero => simpa using this
      | succ j => simpa using this

/-- The latest of the first `n` checkpoints, or the one from before the run. -/
def latest (prev : Option (Nat × Snap A B C)) (cks : List (Nat × Snap A B C)) (n : Nat) :
    Option (Nat × Snap A B C) :=
  match (cks.take n).getLast? with
  | none => prev
  | some p => some p

/-- The state when `n` checkpoints have been completed and no other was begun. -/
theorem latest_full (fs : FS A B C) (prev : Option (Nat × Snap A B C))
    (hprev : match prev with
      | none => fs.last = .absent
      | some (i, s) => fs.last = .complete i ∧ load fs i = some s.data ∧ (fs.dirs i).made = true)
    (cks : List (Nat × Snap A B C)) (n i : Nat)
    (hk : (exec fs (runOps (cks.take n))).last = .complete i) :
    ∃ s, latest prev cks n = some (i, s) ∧ load (exec fs (runOps (cks.take n))) i = some s.data ∧
        ((exec fs (runOps (cks.take n))).dirs i).made = true := by
  unfold latest
  cases hd : (cks.take n).getLast? with
  | none =>
    have : cks.take n = [] := by simpa only [List.getLast?_eq_none_iff] using hd
    rw [this] at hk ⊢
    cases prev with
    | none => simp only at hprev; simp [exec, runOps, hprev] at hk
    | some p =>
      obtain ⟨i', s'⟩ := p
      simp only at hprev
      have : i = i' := by simpa [exec, runOps, hprev.1] using hk.symm
      subst this
      exact ⟨s', rfl, by simpa [exec, runOps] using hprev.2.1, by simpa [exec, runOps] using hprev.2.2⟩
  | some p =>
    obtain ⟨a, b, d⟩ := runOps_full fs _ p hd
    have e : p.1 = i := by rw [a] at hk; simpa using hk
    subst e
    exact ⟨p.2, rfl, b, d⟩

/-- C45: at every crash point, if `last_checkpoint.txt` names a directory, then a restart from it succeeds and
gets the data of the last checkpoint that was completed (`crash / 11` of them: a checkpoint consists of 11
operations), as long as consecutive checkpoints go to different directories. `prev` is the checkpoint named by
the file when the run starts (none for an empty directory). -/
theorem C45_named_is_complete (fs : FS A B C) (prev : Option (Nat × Snap A B C))
    (hprev : match prev with
      | none => fs.last = .absent
      | some (i, s) => fs.last = .complete i ∧ load fs i = some s.data ∧ (fs.dirs i).made = true)
    (cks : List (Nat × Snap A B C)) (halt : Alternating (prev.map (·.1)) cks) (crash : Nat) (i : Nat)
    (hlast : (exec fs ((runOps cks).take crash)).last = .complete i) :
    ∃ s, latest prev cks (crash / 11) = some (i, s) ∧
      restart (exec fs ((runOps cks).take crash)) = some s.data := by
  have fin : ∀ (g : FS A B C) (s : Snap A B C), g.last = .complete i → load g i = some s.data →
      (g.dirs i).made = true → restart g = some s.data := by
    intro g s h1 h2 h3; simp [restart, h1, h2, h3]
  rcases take_runOps cks crash with ⟨p, hp, hq⟩ | ⟨hle, hq⟩
  · rw [hq, exec_append] at hlast ⊢
    rcases writeOps_last (exec fs (runOps (cks.take (crash / 11)))) p.1 p.2 (crash % 11)
      with ⟨hm, hl⟩ | ⟨hm, hl, _⟩ | ⟨hm, _⟩
    · rw [hl] at hlast
      obtain ⟨s, hs, hload, hmade⟩ := latest_full fs prev hprev cks (crash / 11) i hlast
      have hne : i ≠ p.1 := by
        intro e
        apply alternating_get _ cks halt (crash / 11) p hp
        rw [← e]
        unfold latest at hs
        have hj' : crash / 11 < cks.length := by
          rcases Nat.lt_or_ge (crash / 11) cks.length with h | h
          · exact h
          · rw [List.getElem?_eq_none h] at hp; simp at hp
        generalize crash / 11 = j at *
        cases j with
        | zero => simp at hs; simp [hs]
        | succ j =>
          have hj'' : j < cks.length := by omega
          have : (cks.take (j + 1)).getLast? = some cks[j] := by
            rw [List.getLast?_eq_getElem?, List.length_take, Nat.min_eq_left (by omega)]
            simp [List.getElem?_take, hj'']
          rw [this] at hs
          simp at hs
          simp [hj'', hs]
      refine ⟨s, hs, fin _ s (by rw [hl, hlast]) ?_ ?_⟩
      · unfold load; rw [writeOps_other _ _ _ _ _ hne]; exact hload
      · rw [writeOps_other _ _ _ _ _ hne]; exact hmade
    · rw [hl] at hlast; exact absurd hlast (by simp)
    · omega
  · have e : cks = cks.take (crash / 11) := (List.take_of_length_le hle).symm
    rw [hq] at hlast ⊢
    rw [e] at hlast
    obtain ⟨s, hs, hload, hmade⟩ := latest_full fs prev hprev cks (crash / 11) i hlast
    rw [← e] at hload hmade hlast
    exact ⟨s, hs, fin _ s hlast hload hmade⟩

/-! ### From the checkpoint schedule to `Alternating` -/

theorem test_n (cfg : Config) (c : Counters) (x : StepInfo A B C) : (test cfg c x).2.n = c.n := by
  unfold test; simp only; split <;> split <;> rfl

theorem alternating_limited (cfg : Config) (hm : cfg.mode = .limited) (hL : 2 ≤ cfg.limitedSize)
    (c : Counters) (xs : List (StepInfo A B C)) (i0 : Option Nat)
    (h0 : i0 ≠ some (c.n % cfg.limitedSize)) : Alternating i0 (checkpoints cfg c xs) := by
  induction xs generalizing c i0 with
  | nil => trivial
  | cons x xs ih =>
    rw [checkpoints]
    have hn := test_n cfg c x
    rcases ht : test cfg c x with ⟨g, c'⟩
    rw [ht] at hn; simp only at hn
    cases g with
    | false => exact ih c' i0 (by rw [hn]; exact h0)
    | true =>
      have hi : fileIndex cfg c'.n x.snap.step = c.n % cfg.limitedSize := by simp [fileIndex, hm, hn]
      refine ⟨by rw [hi]; exact h0, ih _ _ ?_⟩
      rw [hi]; simp only [hn, ne_eq, Option.some.injEq]
      intro e
      have h1 := Nat.mod_add_div c.n cfg.limitedSize
      have h2 := Nat.mod_lt c.n (show 0 < cfg.limitedSize by omega)
      rw [Nat.add_mod, Nat.mod_eq_of_lt (show 1 < cfg.limitedSize by omega)] at e
      by_cases hlt : c.n % cfg.limitedSize + 1 < cfg.limitedSize
      · rw [Nat.mod_eq_of_lt hlt] at e; omega
      · have : c.n % cfg.limitedSize + 1 = cfg.limitedSize := by omega
        rw [this, Nat.mod_self] at e; omega

/-- The step numbers increase, and all exceed `lo` if given. -/
def Increasing (lo : Option Nat) : List (StepInfo A B C) → Prop
  | [] => True
  | x :: xs => (∀ l, lo = some l → l < x.snap.step) ∧ Increasing (some x.snap.step) xs

theorem increasing_weaken {lo : Option Nat} {l : Nat} {xs : List (StepInfo A B C)}
    (h : Increasing (some l) xs) (hl : ∀ k, lo = some k → k ≤ l) : Increasing lo xs := by
  cases xs with
  | nil => trivial
  | cons x xs =>
    refine ⟨fun k hk => ?_, h.2⟩
    have := h.1 l rfl; have := hl k hk; omega

theorem alternating_unlimited (cfg : Config) (hm : cfg.mode = .unlimited) (c : Counters)
    (xs : List (StepInfo A B C)) (i0 : Option Nat) (h : Increasing i0 xs) :
    Alternating i0 (checkpoints cfg c xs) := by
  induction xs generalizing c i0 with
  | nil => trivial
  | cons x xs ih =>
    rw [checkpoints]
    rcases ht : test cfg c x with ⟨g, c'⟩
    cases g with
    | false =>
      exact ih c' i0 (increasing_weaken h.2 (fun k hk => Nat.le_of_lt (h.1 k hk)))
    | true =>
      have hi : fileIndex cfg c'.n x.snap.step = x.snap.step := by simp [fileIndex, hm]
      refine ⟨?_, ?_⟩
      · rw [hi]; intro e; have := h.1 _ e; omega
      · rw [hi]; exact ih _ _ h.2

/-- C45, limited storage with at least two slots, run started in an empty directory, crash anywhere: if
`last_checkpoint.txt` names a checkpoint, restarting from it succeeds and yields exactly the data of a state
that was reached by the run. -/
theorem C45_limited (cfg : Config) (hm : cfg.mode = .limited) (hL : 2 ≤ cfg.limitedSize) (now : Rat)
    (xs : List (StepInfo A B C)) (crash i : Nat)
    (hlast : (exec FS.empty ((runOps (checkpoints cfg (Counters.new now) xs)).take crash)).last = .complete i) :
    ∃ s, latest none (checkpoints cfg (Counters.new now) xs) (crash / 11) = some (i, s) ∧
      restart (exec FS.empty ((runOps (checkpoints cfg (Counters.new now) xs)).take crash)) = some s.data :=
  C45_named_is_complete (FS.empty : FS A B C) none rfl _
    (alternating_limited cfg hm hL (Counters.new now) xs none (by simp)) crash i hlast

/-- C45, unlimited storage: also across restarts, as long as each run continues from the checkpoint that
`last_checkpoint.txt` names (`prev`; step numbers then exceed its step number). -/
theorem C45_unlimited (cfg : Config) (hm : cfg.mode = .unlimited) (now : Rat) (fs : FS A B C)
    (s0 : Snap A B C)
    (hprev : fs.last = .complete s0.step ∧ load fs s0.step = some s0.data ∧ (fs.dirs s0.step).made = true)
    (xs : List (StepInfo A B C)) (hinc : Increasing (some s0.step) xs) (crash i : Nat)
    (hlast : (exec fs ((runOps (checkpoints cfg (Counters.new now) xs)).take crash)).last = .complete i) :
    ∃ s, latest (some (s0.step, s0)) (checkpoints cfg (Counters.new now) xs) (crash / 11) = some (i, s) ∧
      restart (exec fs ((runOps (checkpoints cfg (Counters.new now) xs)).take crash)) = some s.data :=
  C45_named_is_complete fs (some (s0.step, s0)) hprev _
    (alternating_unlimited cfg hm (Counters.new now) xs _ hinc) crash i hlast

/-- C45, limited storage across a restart: safe if the checkpoint the run continues from is not in slot 0, because
the slot counter starts at 0 again. -/
theorem C45_limited_restart_partial (cfg : Config) (hm : cfg.mode = .limited) (hL : 2 ≤ cfg.limitedSize)
    (now : Rat) (fs : FS A B C) (i0 : Nat) (hi0 : i0 ≠ 0) (s0 : Snap A B C)
    (hprev : fs.last = .complete i0 ∧ load fs i0 = some s0.data ∧ (fs.dirs i0).made = true)
    (xs : List (StepInfo A B C)) (crash i : Nat)
    (hlast : (exec fs ((runOps (checkpoints cfg (Counters.new now) xs)).take crash)).last = .complete i) :
    ∃ s, latest (some (i0, s0)) (checkpoints cfg (Counters.new now) xs) (crash / 11) = some (i, s) ∧
      restart (exec fs ((runOps (checkpoints cfg (Counters.new now) xs)).take crash)) = some s.data :=
  C45_named_is_complete fs (some (i0, s0)) hprev _
    (alternating_limited cfg hm hL (Counters.new now) xs _ (by simpa [Counters.new] using hi0)) crash i hlast

/-- C45: the checkpoint taken last is the one that a restart gets when the run was not interrupted in the middle
of a checkpoint. -/
theorem C45_latest (fs : FS A B C) (cks : List (Nat × Snap A B C)) (p : Nat × Snap A B C)
    (h : cks.getLast? = some p) : restart (exec fs (runOps cks)) = some p.2.data := by
  obtain ⟨a, b, d⟩ := runOps_full fs cks p h
  simp [restart, a, b, d]

/-- C45: wherever the run is interrupted while the `j`-th checkpoint is written (counting from 0, `j ≥ 1`), the
previous checkpoint can still be loaded from its directory - even in the window where `last_checkpoint.txt` is
being rewritten and names nothing. -/
theorem C45_previous_survives (fs : FS A B C) (cks : List (Nat × Snap A B C))
    (halt : Alternating none cks) (j : Nat) (p q : Nat × Snap A B C)
    (hp : cks[j]? = some p) (hq : cks[j + 1]? = some q) (m : Nat) :
    load (exec fs (runOps (cks.take (j + 1)) ++ (writeOps q.1 q.2).take m)) p.1 = some p.2.data := by
  rw [exec_append]
  have hj : j < cks.length := by
    rcases Nat.lt_or_ge j cks.length with h | h
    · exact h
    · rw [List.getElem?_eq_none h] at hp; simp at hp
  have hne : p.1 ≠ q.1 := by
    have := alternating_get none cks halt (j + 1) q hq
    simpa [hp] using this
  have hlast : (cks.take (j + 1)).getLast? = some p := by
    rw [List.getLast?_eq_getElem?, List.length_take, Nat.min_eq_left (by omega)]
    simp [List.getElem?_take, hp]
  unfold load
  rw [writeOps_other _ _ _ _ _ hne]
  exact (runOps_full fs _ p hlast).2.1

theorem made_mono (fs : FS A B C) (ops : List (Op A B C)) (L : Nat)
    (h0 : ∀ i, (fs.dirs i).made = true → i < L)
    (h : ∀ i, Op.mkdir i ∈ ops → i < L) : ∀ i, ((exec fs ops).dirs i).made = true → i < L := by
  induction ops generalizing fs with
  | nil => exact h0
  | cons o os ih =>
    refine ih (fs.apply o) ?_ (fun i hi => h i (List.mem_cons_of_mem _ hi))
    intro i hi
    cases o with
    | mkdir k =>
      by_cases e : i = k
      · subst e; exact h i List.mem_cons_self
      · exact h0 i (by simpa [FS.apply, FS.modify, e] using hi)
    | openLast => exact h0 i hi
    | closeLast k => exact h0 i hi
    | _ =>
      apply h0 i
      simp only [FS.apply, FS.modify] at hi
      split at hi <;> exact hi

theorem mem_checkpoints_limited (cfg : Config) (hm : cfg.mode = .limited) (hL : 0 < cfg.limitedSize)
    (c : Counters) (xs : List (StepInfo A B C)) : ∀ p ∈ checkpoints cfg c xs, p.1 < cfg.limitedSize := by
  induction xs generalizing c with
  | nil => simp [checkpoints]
  | cons x xs ih =>
    rw [checkpoints]
    rcases ht : test cfg c x with ⟨g, c'⟩
    cases g with
    | false => exact ih c'
    | true =>
      intro p hp
      rcases List.mem_cons.1 hp with rfl | hp
      · simp only [fileIndex, hm]; exact Nat.mod_lt _ hL
      · exact ih _ p hp

/-- C45: with limited storage, whatever was there before within the limit, at no moment are there more
checkpoint directories than the limit. -/
theorem C45_at_most_limit (cfg : Config) (hm : cfg.mode = .limited) (hL : 0 < cfg.limitedSize)
    (c : Counters) (xs : List (StepInfo A B C)) (fs : FS A B C)
    (h0 : ∀ i, (fs.dirs i).made = true → i < cfg.limitedSize) (crash : Nat) :
    ∀ i, ((exec fs ((runOps (checkpoints cfg c xs)).take crash)).dirs i).made = true → i < cfg.limitedSize := by
  apply made_mono _ _ _ h0
  intro i hi
  have hi := List.mem_of_mem_take hi
  simp only [runOps, List.mem_flatMap] at hi
  obtain ⟨p, hp, hi⟩ := hi
  simp only [writeOps, List.mem_cons, List.not_mem_nil, or_false, Op.mkdir.injEq, reduceCtorEq] at hi
  rw [hi]; exact mem_checkpoints_limited cfg hm hL c xs p hp

/-- C45: a checkpoint is taken after every time step whose number is a multiple of the frequency. -/
theorem C45_step_trigger (cfg : Config) (c : Counters) (x : StepInfo A B C)
    (h : x.snap.step % cfg.freqStep = 0) : (test cfg c x).1 = true := by
  simp [test, h]

theorem test_time (cfg : Config) (c : Counters) (x : StepInfo A B C) (h : (test cfg c x).1 = false) :
    (test cfg c x).2 = c ∧ x.cpu - c.cpuLast < cfg.freqCpuMinutes * 60 ∧ x.time - c.timeLast < cfg.freqTime := by
  unfold test at h ⊢
  simp only [Bool.or_eq_false_iff, decide_eq_false_iff_not, Rat.not_le, ge_iff_le] at h
  obtain ⟨⟨h1, h2⟩, h3⟩ := h
  have e1 : decide (x.cpu - c.cpuLast ≥ cfg.freqCpuMinutes * 60) = false := by
    simp only [decide_eq_false_iff_not, ge_iff_le, Rat.not_le]; exact h1
  simp only [e1, Bool.false_eq_true, if_false] at h3 ⊢
  have e3 : decide (x.time - c.timeLast ≥ cfg.freqTime) = false := by
    simp only [decide_eq_false_iff_not, ge_iff_le, Rat.not_le]; exact h3
  simp [e3, h1, h3]

/-- C45: if no checkpoint is taken after a step, less than the configured CPU time has passed since the last CPU
time trigger and less than the configured physical time since the last physical time trigger. -/
theorem C45_triggers (cfg : Config) (c : Counters) (x : StepInfo A B C) (h : (test cfg c x).1 = false) :
    x.cpu - c.cpuLast < cfg.freqCpuMinutes * 60 ∧ x.time - c.timeLast < cfg.freqTime ∧
    x.snap.step % cfg.freqStep ≠ 0 := by
  refine ⟨(test_time cfg c x h).2.1, (test_time cfg c x h).2.2, fun e => ?_⟩
  rw [C45_step_trigger cfg c x e] at h; exact Bool.noConfusion h

/-- C45: the exact trigger rule and what it remembers: a checkpoint is taken when the CPU time since the last CPU time
trigger, the step number or the physical time since the last physical time trigger asks for it; each of the two
clocks restarts exactly when its own trigger fires. -/
theorem C45_trigger_rule (cfg : Config) (c : Counters) (x : StepInfo A B C) :
    ((test cfg c x).1 = true ↔ cfg.freqCpuMinutes * 60 ≤ x.cpu - c.cpuLast ∨ x.snap.step % cfg.freqStep = 0 ∨
      cfg.freqTime ≤ x.time - c.timeLast) ∧
    (cfg.freqCpuMinutes * 60 ≤ x.cpu - c.cpuLast → (test cfg c x).2.cpuLast = x.cpu) ∧
    (¬ cfg.freqCpuMinutes * 60 ≤ x.cpu - c.cpuLast → (test cfg c x).2.cpuLast = c.cpuLast) ∧
    (cfg.freqTime ≤ x.time - c.timeLast → (test cfg c x).2.timeLast = x.time) ∧
    (¬ cfg.freqTime ≤ x.time - c.timeLast → (test cfg c x).2.timeLast = c.timeLast) ∧
    (test cfg c x).2.n = c.n := by
  unfold test
  by_cases h1 : cfg.freqCpuMinutes * 60 ≤ x.cpu - c.cpuLast <;>
    by_cases h3 : cfg.freqTime ≤ x.time - c.timeLast <;> simp [h1, h3]

/-- C45: when only the CPU clock asks for checkpoints, consecutive checkpoints of a run are at least the configured
CPU time apart, and the first one at least that long after the start. (`ts` carries the CPU time of the step.) -/
theorem C45_cpu_spacing (cfg : Config) (xs : List (StepInfo Rat B C)) (now : Rat)
    (hx : ∀ x ∈ xs, x.snap.ts = x.cpu ∧ x.snap.step % cfg.freqStep ≠ 0 ∧ x.time < cfg.freqTime) :
    List.IsChain (fun a b => cfg.freqCpuMinutes * 60 ≤ b - a)
      (now :: (checkpoints cfg (Counters.new now) xs).map (fun p => p.2.ts)) := by
  have key : ∀ (xs : List (StepInfo Rat B C)) (c : Counters), c.timeLast = 0 →
      (∀ x ∈ xs, x.snap.ts = x.cpu ∧ x.snap.step % cfg.freqStep ≠ 0 ∧ x.time < cfg.freqTime) →
      List.IsChain (fun a b => cfg.freqCpuMinutes * 60 ≤ b - a)
        (c.cpuLast :: (checkpoints cfg c xs).map (fun p => p.2.ts)) := by
    intro xs
    induction xs with
    | nil => intro c _ _; exact .singleton _
    | cons x xs ih =>
      intro c hc h
      obtain ⟨a1, a2, a3⟩ := h x List.mem_cons_self
      obtain ⟨r1, r2, r3, _, r5, _⟩ := C45_trigger_rule cfg c x
      have hn : ¬ cfg.freqTime ≤ x.time - c.timeLast := by
        rw [hc, Rat.sub_eq_add_neg, Rat.neg_zero, Rat.add_zero]; exact Rat.not_le.mpr a3
      have hih := fun c' h' => ih c' h' (fun y hy => h y (List.mem_cons_of_mem _ hy))
      rcases ht : test cfg c x with ⟨b, c'⟩
      rw [ht] at r1 r2 r3 r5
      simp only at r1 r2 r3 r5
      cases b with
      | true =>
        have hcpu : cfg.freqCpuMinutes * 60 ≤ x.cpu - c.cpuLast := by
          rcases r1.mp rfl with h | h | h
          · exact h
          · exact absurd h a2
          · exact absurd h hn
        simp only [checkpoints, ht, List.map_cons]
        have := hih { c' with n := c'.n + 1 } (by simp only; rw [r5 hn, hc])
        rw [a1]
        refine .cons_cons hcpu ?_
        rw [← r2 hcpu]
        exact this
      | false =>
        simp only [checkpoints, ht]
        have hcpu : ¬ cfg.freqCpuMinutes * 60 ≤ x.cpu - c.cpuLast := fun h => by
          have := r1.mpr (.inl h); exact Bool.noConfusion this
        have := hih c' (by rw [r5 hn, hc])
        rw [r3 hcpu] at this
        exact this
  exact key xs (Counters.new now) rfl hx

example : ∀ x ∈ [(⟨2000, 0, ⟨2000, 0, 0, 1⟩⟩ : StepInfo Rat Nat Nat), ⟨4000, 1, ⟨4000, 0, 0, 2⟩⟩],
    x.snap.ts = x.cpu ∧ x.snap.step % 10 ≠ 0 ∧ x.time < 10000000000 := by decide +kernel

/-! ### Examples and counterexamples -/

def cfgLimited (L : Nat) : Config := ⟨.limited, L, 10, 30, 10000000000⟩
def stepAt (n : Nat) : StepInfo Nat Nat Nat := ⟨0, 0, ⟨n, n, n, n⟩⟩

/-- Three checkpoints rotate over two slots. -/
example : (checkpoints (cfgLimited 2) (Counters.new 0) [stepAt 10, stepAt 11, stepAt 20, stepAt 30]).map (·.1)
    = [0, 1, 0] := by decide +kernel

/-- C45, negative: with one slot, a crash while the second checkpoint is written leaves `last_checkpoint.txt`
naming a directory that cannot be loaded. -/
theorem C45_one_slot_unsafe :
    let fs := exec FS.empty ((runOps (checkpoints (cfgLimited 1) (Counters.new 0) [stepAt 10, stepAt 20])).take 13)
    fs.last = .complete 0 ∧ restart fs = none := by decide +kernel

/-- C45, negative: with two slots, a run that continues from slot 0 writes its first checkpoint into slot 0; a crash
then leaves no loadable checkpoint at all. -/
theorem C45_restart_slot_zero_unsafe :
    let fs0 := exec FS.empty (runOps (checkpoints (cfgLimited 2) (Counters.new 0) [stepAt 10]))
    let fs := exec fs0 ((runOps (checkpoints (cfgLimited 2) (Counters.new 0) [stepAt 20])).take 2)
    restart fs0 = some (10, 10, 10) ∧ fs.last = .complete 0 ∧ restart fs = none ∧ load fs 1 = none := by
  decide +kernel

/-- C45, negative: while `last_checkpoint.txt` is rewritten it names nothing, although complete checkpoints
exist; a restart from the file fails in that window. -/
theorem C45_naming_window :
    let fs := exec FS.empty ((runOps (checkpoints (cfgLimited 2) (Counters.new 0) [stepAt 10, stepAt 20])).take 21)
    restart fs = none ∧ load fs 0 = some (10, 10, 10) ∧ load fs 1 = some (20, 20, 20) := by
  decide +kernel

end Tandem.TSCheckpoint
