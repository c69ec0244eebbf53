/-
C43 (adaptive output) and C48 (output sees the current state), `app/tandem/Monitor.cpp`.
-/
import Verif.Model.Monitor
import Verif.Spec.Monitor
import Mathlib.Data.Rat.Defs
import Mathlib.Algebra.Order.Field.Rat
import Mathlib.Tactic.Linarith
import Mathlib.Tactic.NormNum
import Mathlib.Data.List.Chain

namespace Tandem.Monitor

variable {K : Type} [Field K] [LinearOrder K] [IsStrictOrderedRing K]

/-! ### C43 -/

/-- C43: when an output is due. More than `t_max` since the last output, or more than `t_min` and the
maximum slip rate moved by at least the tolerance `atol + rtol * max`. -/
theorem C43_due_iff (oi : Interval K) (d Vl V : K)
    (htol : 0 < oi.atol + max Vl V * oi.rtol) :
    oi.due d Vl V = true ↔
      oi.tMax < d ∨ (oi.tMin < d ∧ oi.atol + max Vl V * oi.rtol ≤ |V - Vl|) := by
  have hne := ne_of_gt htol
  simp only [Interval.due, lteGeOne, hne, if_false, Bool.or_eq_true, decide_eq_true_eq,
    Bool.and_eq_true]
  rw [le_div_iff₀ htol, one_mul]

example : (⟨0, 1 / 10, 1, 5⟩ : Interval ℚ).due 2 10 20 = true := by
  rw [C43_due_iff] <;> norm_num

/-- C43: with both tolerances zero (allowed by the configuration), any change of the slip rate makes an
output due after `t_min`. -/
theorem C43_due_zero_tolerance (oi : Interval K) (d Vl V : K)
    (htol : oi.atol + max Vl V * oi.rtol = 0) :
    oi.due d Vl V = true ↔ oi.tMax < d ∨ (oi.tMin < d ∧ V ≠ Vl) := by
  simp only [Interval.due, lteGeOne, htol, if_true, Bool.or_eq_true, decide_eq_true_eq,
    Bool.and_eq_true]
  simp [sub_eq_zero]

theorem visit_true (w : Writer K) (t V : K) (h : w.required t V = true) :
    w.visit t V = (some w.step, w.increase t V) := by simp [Writer.visit, h]
theorem visit_false (w : Writer K) (t V : K) (h : ¬ w.required t V = true) :
    w.visit t V = (none, w) := by simp [Writer.visit, h]

theorem run_cons_true (w : Writer K) (t V : K) (r : List (K × K)) (h : w.required t V = true) :
    w.run ((t, V) :: r) =
      ((w.step, t, V) :: ((w.increase t V).run r).1, ((w.increase t V).run r).2) := by
  rw [Writer.run, visit_true w t V h]

theorem run_cons_false (w : Writer K) (t V : K) (r : List (K × K)) (h : ¬ w.required t V = true) :
    w.run ((t, V) :: r) = w.run r := by
  rw [Writer.run, visit_false w t V h]

theorem increase_normal (w : Writer K) (t V : K) (h : w.level ≠ .momentRate ∨ w.gotFirst = true) :
    w.increase t V = { w with step := w.step + 1, lastTime := t, lastV := V } := by
  unfold Writer.increase
  rw [if_neg]
  rintro ⟨a, b⟩
  rcases h with h | h
  · exact h a
  · rw [h] at b; exact Bool.noConfusion b

/-- C43: the first monitor call is always an output, with step number 0. -/
theorem C43_first (lowest : K) (oi : Interval K) (level : Level) (t V : K) (rest : List (K × K))
    (h : oi.tMax < t - lowest) :
    ((Writer.new lowest oi level).run ((t, V) :: rest)).1.head? = some (0, t, V) := by
  rw [run_cons_true]
  · rfl
  · simp [Writer.required, Writer.new, Interval.due, h]

theorem run_steps (w : Writer K) (hist : List (K × K))
    (h : w.level ≠ .momentRate ∨ w.gotFirst = true) :
    (w.run hist).1.map (·.1) = List.range' w.step (w.run hist).1.length := by
  induction hist generalizing w with
  | nil => simp [Writer.run]
  | cons p r ih =>
    obtain ⟨t, V⟩ := p
    by_cases hr : w.required t V = true
    · rw [run_cons_true w t V r hr, increase_normal w t V h]
      have := ih { w with step := w.step + 1, lastTime := t, lastV := V } h
      simp only [List.map_cons, List.length_cons, List.range'_succ, this]
    · rw [run_cons_false w t V r hr]; exact ih w h

/-- C43: the outputs are numbered 0, 1, 2, ... without gap or repetition. -/
theorem C43_consecutive (lowest : K) (oi : Interval K) (level : Level) (hist : List (K × K))
    (h : level ≠ .momentRate) :
    ((Writer.new lowest oi level).run hist).1.map (·.1)
      = List.range ((Writer.new lowest oi level).run hist).1.length := by
  rw [run_steps _ _ (Or.inl h), List.range_eq_range']; rfl

/-- C43: the outputs are the monitored states of some of the monitor calls, in order. -/
theorem C43_outputs_sublist (w : Writer K) (hist : List (K × K)) :
    List.Sublist ((w.run hist).1.map (·.2)) hist := by
  induction hist generalizing w with
  | nil => simp [Writer.run]
  | cons p r ih =>
    obtain ⟨t, V⟩ := p
    by_cases hr : w.required t V = true
    · rw [run_cons_true w t V r hr]; exact List.Sublist.cons_cons _ (ih _)
    · rw [run_cons_false w t V r hr]; exact List.Sublist.cons _ (ih _)

theorem due_gap (oi : Interval K) (d Vl V : K) (h : oi.due d Vl V = true) :
    min oi.tMin oi.tMax < d := by
  simp only [Interval.due, Bool.or_eq_true, Bool.and_eq_true, decide_eq_true_eq] at h
  rcases h with h | h
  · exact lt_of_le_of_lt (min_le_right _ _) h
  · exact lt_of_le_of_lt (min_le_left _ _) h.1

theorem run_gap (w : Writer K) (hist : List (K × K))
    (h : w.level ≠ .momentRate ∨ w.gotFirst = true) :
    List.IsChain (fun a b => min w.oi.tMin w.oi.tMax < b - a)
      (w.lastTime :: (w.run hist).1.map (·.2.1)) := by
  induction hist generalizing w with
  | nil => simp [Writer.run]
  | cons p r ih =>
    obtain ⟨t, V⟩ := p
    by_cases hr : w.required t V = true
    · rw [run_cons_true w t V r hr, increase_normal w t V h]
      simp only [List.map_cons]
      refine List.IsChain.cons_cons ?_ ?_
      · exact due_gap _ _ _ _ hr
      · exact ih { w with step := w.step + 1, lastTime := t, lastV := V } h
    · rw [run_cons_false w t V r hr]; exact ih w h

/-- C43: two consecutive outputs are more than `t_min` apart (when `t_min ≤ t_max`; with
`t_max < t_min` they are more than `t_max` apart). -/
theorem C43_min_gap (lowest : K) (oi : Interval K) (level : Level) (hist : List (K × K))
    (h : level ≠ .momentRate) :
    List.IsChain (fun a b => min oi.tMin oi.tMax < b - a)
      (((Writer.new lowest oi level).run hist).1.map (·.2.1)) :=
  (run_gap (Writer.new lowest oi level) hist (Or.inl h)).tail

/-- The state after a run is governed by the last output, or is the initial one. -/
theorem run_last (w : Writer K) (hist : List (K × K))
    (h : w.level ≠ .momentRate ∨ w.gotFirst = true) :
    (w.run hist).2.oi = w.oi ∧ (w.run hist).2.level = w.level
      ∧ (w.run hist).2.gotFirst = w.gotFirst ∧
    ((((w.run hist).1 = [] ∧ (w.run hist).2 = w)) ∨
      ∃ k, (w.run hist).1.getLast? = some (k, (w.run hist).2.lastTime, (w.run hist).2.lastV)) := by
  induction hist generalizing w with
  | nil => exact ⟨rfl, rfl, rfl, Or.inl ⟨rfl, rfl⟩⟩
  | cons p r ih =>
    obtain ⟨t, V⟩ := p
    by_cases hr : w.required t V = true
    · rw [run_cons_true w t V r hr, increase_normal w t V h]
      obtain ⟨h1, h2, h3, h4⟩ := ih { w with step := w.step + 1, lastTime := t, lastV := V } h
      refine ⟨h1, h2, h3, Or.inr ?_⟩
      rcases h4 with ⟨h4, h5⟩ | ⟨k, h4⟩
      · rw [h4, h5]; exact ⟨_, rfl⟩
      · refine ⟨k, ?_⟩
        simp only [List.getLast?_cons, h4, Option.getD_some]
    · rw [run_cons_false w t V r hr]; exact ih w h

theorem run_append (w : Writer K) (a b : List (K × K)) :
    w.run (a ++ b) = ((w.run a).1 ++ ((w.run a).2.run b).1, ((w.run a).2.run b).2) := by
  induction a generalizing w with
  | nil => simp [Writer.run]
  | cons p r ih =>
    obtain ⟨t, V⟩ := p
    by_cases hr : w.required t V = true
    · rw [List.cons_append, run_cons_true w t V _ hr, run_cons_true w t V _ hr, ih]; rfl
    · rw [List.cons_append, run_cons_false w t V _ hr, run_cons_false w t V _ hr, ih]

/-- C43: right after any monitor call `(t, V)` the last output `(tl, Vl)` is at most `t_max` old, and if it is
more than `t_min` old, the slip rate has moved by less than the tolerance since. -/
theorem C43_max_gap (lowest : K) (oi : Interval K) (level : Level) (t0 V0 : K)
    (mid : List (K × K)) (t V : K)
    (hl : level ≠ .momentRate) (h0 : oi.tMax < t0 - lowest) (hmax : 0 ≤ oi.tMax)
    (htol : 0 < oi.atol) (hr : 0 ≤ oi.rtol) (hV : 0 ≤ V) :
    ∃ k tl Vl,
      ((Writer.new lowest oi level).run ((t0, V0) :: mid ++ [(t, V)])).1.getLast? = some (k, tl, Vl) ∧
      t - tl ≤ oi.tMax ∧
      (oi.tMin < t - tl → |V - Vl| < oi.atol + max Vl V * oi.rtol) := by
  have hreq : (Writer.new lowest oi level).required t0 V0 = true := by
    simp [Writer.required, Writer.new, Interval.due, h0]
  obtain ⟨a1, a2, a3, a4⟩ := run_last (Writer.new lowest oi level) ((t0, V0) :: mid) (Or.inl hl)
  have hne : ((Writer.new lowest oi level).run ((t0, V0) :: mid)).1 ≠ [] := by
    rw [run_cons_true _ _ _ _ hreq]; simp
  rw [run_append]
  generalize hw : ((Writer.new lowest oi level).run ((t0, V0) :: mid)) = W at *
  obtain ⟨os, w⟩ := W
  simp only at a1 a2 a3 a4 hne ⊢
  have hwl : w.level ≠ .momentRate ∨ w.gotFirst = true := Or.inl (by rw [a2]; exact hl)
  rcases a4 with a4 | ⟨k, a4⟩
  · exact absurd a4.1 hne
  · have pos : 0 < oi.atol + max w.lastV V * oi.rtol := by
      have : 0 ≤ max w.lastV V * oi.rtol := mul_nonneg (le_max_of_le_right hV) hr
      linarith
    have posV : 0 < oi.atol + max V V * oi.rtol := by
      have : 0 ≤ max V V * oi.rtol := mul_nonneg (le_max_of_le_right hV) hr
      linarith
    by_cases hq : w.required t V = true
    · rw [run_cons_true _ _ _ _ hq, increase_normal _ _ _ hwl]
      refine ⟨w.step, t, V, ?_, by simpa using hmax, ?_⟩
      · simp [Writer.run]
      · intro _; simpa using posV
    · rw [run_cons_false _ _ _ _ hq]
      refine ⟨k, w.lastTime, w.lastV, by simpa [Writer.run] using a4, ?_, ?_⟩
      · by_contra hc
        apply hq
        have e : w.oi = oi := a1
        simp only [Writer.required, e]
        exact (C43_due_iff oi _ _ _ pos).2 (Or.inl (not_le.mp hc))
      · intro hmin
        by_contra hc
        apply hq
        have e : w.oi = oi := a1
        simp only [Writer.required, e]
        exact (C43_due_iff oi _ _ _ pos).2 (Or.inr ⟨hmin, not_lt.mp hc⟩)

/-- The hypotheses can be met, with a call that is not output: three calls, the second within the
tolerance. -/
example : ((Writer.new (-1000 : ℚ) ⟨1 / 10, 1 / 10, 1, 5⟩ .scalar).run
    [(0, 1), (2, 1), (8, 1)]).1 = [(0, 0, 1), (1, 8, 1)] := by decide +kernel

/-- C43: the moment-rate writer's first two calls are both outputs with step number 0 (so the second
overwrites the first in the file), and the numbering is consecutive from there. -/
theorem C43_moment_rate_steps (lowest : K) (oi : Interval K) (t0 V0 t1 V1 : K) (rest : List (K × K))
    (h0 : oi.tMax < t0 - lowest) (h1 : oi.tMax < t1 - lowest) :
    ∃ os : List (Nat × K × K),
      ((Writer.new lowest oi .momentRate).run ((t0, V0) :: (t1, V1) :: rest)).1
        = (0, t0, V0) :: (0, t1, V1) :: os ∧
      os.map (·.1) = List.range' 1 os.length := by
  rw [run_cons_true _ _ _ _ (by simp [Writer.required, Writer.new, Interval.due, h0])]
  rw [run_cons_true _ _ _ _
    (by simp [Writer.required, Writer.new, Writer.increase, Interval.due, h1])]
  refine ⟨_, rfl, ?_⟩
  rw [run_steps _ _ (Or.inr (by simp [Writer.increase, Writer.new]))]
  simp [Writer.increase, Writer.new]

/-- C43, negative: for the moment-rate writer the second monitor call is an output however short the
time step is, so `t_min` is not respected there. -/
theorem C43_moment_rate_ignores_t_min :
    ((Writer.new (-1000 : ℚ) ⟨1 / 10, 1 / 10, 1, 5⟩ .momentRate).run
      [(0, 1), (1 / 1000, 1)]).1 = [(0, 0, 1), (0, 1 / 1000, 1)] := by decide +kernel

/-! #### Time step limits (`min_time_step`, `max_time_step` of the summary) -/

theorem limits_fold (lowest : K) (l : Limits K) (ts : List K) (hl : l.lastTime ≠ lowest)
    (h : ∀ t ∈ ts, t ≠ lowest) :
    let l' := ts.foldl (Limits.update lowest) l
    let ds := List.zipWith (fun b a => b - a) ts (l.lastTime :: ts)
    l'.dtMin = ds.foldl min l.dtMin ∧ l'.dtMax = ds.foldl max l.dtMax := by
  induction ts generalizing l with
  | nil => simp
  | cons t ts ih =>
    have e : Limits.update lowest l t
        = ⟨t, min l.dtMin (t - l.lastTime), max l.dtMax (t - l.lastTime)⟩ := by
      simp [Limits.update, hl]
    have := ih ⟨t, min l.dtMin (t - l.lastTime), max l.dtMax (t - l.lastTime)⟩
      (h t (by simp)) (fun x hx => h x (by simp [hx]))
    simp only [List.foldl_cons, e, List.zipWith_cons_cons]
    exact this

theorem foldl_min_le (ds : List K) (a : K) :
    ds.foldl min a ≤ a ∧ (∀ d ∈ ds, ds.foldl min a ≤ d) ∧ (ds.foldl min a = a ∨ ds.foldl min a ∈ ds) := by
  induction ds generalizing a with
  | nil => simp
  | cons d ds ih =>
    obtain ⟨h1, h2, h3⟩ := ih (min a d)
    simp only [List.foldl_cons, List.mem_cons, forall_eq_or_imp]
    refine ⟨le_trans h1 (min_le_left _ _), ⟨le_trans h1 (min_le_right _ _), h2⟩, ?_⟩
    rcases h3 with h3 | h3
    · rcases min_choice a d with e | e
      · left; rw [h3, e]
      · right; left; rw [h3, e]
    · right; right; exact h3

theorem foldl_max_ge (ds : List K) (a : K) :
    a ≤ ds.foldl max a ∧ (∀ d ∈ ds, d ≤ ds.foldl max a) ∧ (ds.foldl max a = a ∨ ds.foldl max a ∈ ds) := by
  induction ds generalizing a with
  | nil => simp
  | cons d ds ih =>
    obtain ⟨h1, h2, h3⟩ := ih (max a d)
    simp only [List.foldl_cons, List.mem_cons, forall_eq_or_imp]
    refine ⟨le_trans (le_max_left _ _) h1, ⟨le_trans (le_max_right _ _) h1, h2⟩, ?_⟩
    rcases h3 with h3 | h3
    · rcases max_choice a d with e | e
      · left; rw [h3, e]
      · right; left; rw [h3, e]
    · right; right; exact h3

/-- C68: after monitor calls at the times `t0 :: ts` (at least two of them), the reported minimum time step is
the smallest and the reported maximum the largest difference of consecutive times. -/
theorem C68_dt_limits (lowest huge t0 : K) (ts : List K) (hne : ts ≠ [])
    (h0 : t0 ≠ lowest) (h : ∀ t ∈ ts, t ≠ lowest)
    (hr : ∀ d ∈ List.zipWith (fun b a => b - a) ts (t0 :: ts), lowest < d ∧ d < huge) :
    let l := (t0 :: ts).foldl (Limits.update lowest) (Limits.new lowest huge)
    let ds := List.zipWith (fun b a => b - a) ts (t0 :: ts)
    (l.dtMin ∈ ds ∧ ∀ d ∈ ds, l.dtMin ≤ d) ∧ (l.dtMax ∈ ds ∧ ∀ d ∈ ds, d ≤ l.dtMax) := by
  have e : Limits.update lowest (Limits.new lowest huge) t0 = ⟨t0, huge, lowest⟩ := by
    simp [Limits.update, Limits.new]
  obtain ⟨a, b⟩ := limits_fold lowest ⟨t0, huge, lowest⟩ ts h0 h
  simp only [List.foldl_cons, e]
  simp only at a b
  rw [a, b]
  have hex : ∃ d, d ∈ List.zipWith (fun b a => b - a) ts (t0 :: ts) := by
    cases ts with
    | nil => exact absurd rfl hne
    | cons x xs => exact ⟨_, List.mem_cons_self⟩
  obtain ⟨d, hd⟩ := hex
  obtain ⟨-, m2, m3⟩ := foldl_min_le (List.zipWith (fun b a => b - a) ts (t0 :: ts)) huge
  obtain ⟨-, n2, n3⟩ := foldl_max_ge (List.zipWith (fun b a => b - a) ts (t0 :: ts)) lowest
  refine ⟨⟨?_, m2⟩, ⟨?_, n2⟩⟩
  · rcases m3 with m3 | m3
    · have := m2 d hd; have := (hr d hd).2; rw [m3] at *; exact absurd (lt_of_le_of_lt ‹huge ≤ d› this) (lt_irrefl _)
    · exact m3
  · rcases n3 with n3 | n3
    · have := n2 d hd; have := (hr d hd).1; rw [n3] at *; exact absurd (lt_of_lt_of_le this ‹d ≤ lowest›) (lt_irrefl _)
    · exact n3

example : ((([0, 1, 4, 6] : List ℚ)).foldl (Limits.update (-1000)) (Limits.new (-1000) 1000)).dtMin = 1 ∧
    ((([0, 1, 4, 6] : List ℚ)).foldl (Limits.update (-1000)) (Limits.new (-1000) 1000)).dtMax = 3 := by
  decide +kernel

/-! ### C48 -/

section C48
open Tandem.Spec
variable {S U R M B : Type}

theorem payload_of_writeAll (P : Physics K S U R M B) (c : Cache K U R M) (t : K) (s : S) (V : K)
    (i : Nat) (ws : List (Writer K)) (r : Record K U B M) (h : r ∈ (writeAll P c t s V i ws).1) :
    r.time = t ∧ ∃ w ∈ ws, w.required t V = true ∧ r.data = payload P c t s V w.level := by
  induction ws generalizing i with
  | nil => simp [writeAll] at h
  | cons w ws ih =>
    rw [writeAll] at h
    by_cases hr : w.required t V = true
    · rw [visit_true w t V hr] at h
      simp only [List.mem_cons] at h
      rcases h with h | h
      · subst h; exact ⟨rfl, w, by simp, hr, rfl⟩
      · obtain ⟨a, w', b, c⟩ := ih (i + 1) h
        exact ⟨a, w', by simp [b], c⟩
    · rw [visit_false w t V hr] at h
      obtain ⟨a, w', b, c⟩ := ih (i + 1) h
      exact ⟨a, w', by simp [b], c⟩

theorem writeAll_writer (P : Physics K S U R M B) (c : Cache K U R M) (t : K) (s : S) (V : K) (i : Nat) :
    ∀ (ws : List (Writer K)) (o : Nat),
      ((writeAll P c t s V o ws).1.filter (fun r => r.writer = o + i)).map (fun r => (r.step, r.time, kindOfData r.data)) =
        (ws[i]?.bind fun w => (w.visit t V).1.map fun k => (k, t, w.level)).toList ∧
      (writeAll P c t s V o ws).2[i]? = ws[i]?.map (fun w => (w.visit t V).2) ∧
      ∀ r ∈ (writeAll P c t s V o ws).1, o ≤ r.writer := by
  intro ws
  induction ws generalizing i with
  | nil => intro o; simp [writeAll]
  | cons w ws ih =>
    intro o
    have hge := (ih 0 (o + 1)).2.2
    have hnone : ((writeAll P c t s V (o + 1) ws).1.filter (fun r => decide (r.writer = o))) = [] := by
      rw [List.filter_eq_nil_iff]
      intro r hr; have := hge r hr; simp; omega
    have hk : kindOfData (payload P c t s V w.level) = w.level := by cases w.level <;> rfl
    cases hv : w.visit t V with
    | mk k w' =>
      cases i with
      | zero =>
        cases k with
        | none =>
          simp only [writeAll, hv, Nat.add_zero]
          refine ⟨by rw [hnone]; simp [hv], by simp [hv], fun r hr => by have := hge r hr; omega⟩
        | some k =>
          simp only [writeAll, hv, Nat.add_zero]
          refine ⟨by rw [List.filter_cons_of_pos (by simp), hnone]; simp [hv, hk], by simp [hv], fun r hr => ?_⟩
          rcases List.mem_cons.1 hr with rfl | hr
          · exact le_rfl
          · have := hge r hr; omega
      | succ i =>
        obtain ⟨h1, h2, -⟩ := ih i (o + 1)
        rw [show o + 1 + i = o + (i + 1) by omega] at h1
        cases k with
        | none =>
          simp only [writeAll, hv]
          exact ⟨by simpa using h1, by simpa using h2, fun r hr => by have := hge r hr; omega⟩
        | some k =>
          simp only [writeAll, hv]
          refine ⟨by rw [List.filter_cons_of_neg (by simp)]; simpa using h1, by simpa using h2, fun r hr => ?_⟩
          rcases List.mem_cons.1 hr with rfl | hr
          · exact le_rfl
          · have := hge r hr; omega

theorem visit_level (w : Writer K) (t V : K) : (w.visit t V).2.level = w.level := by
  unfold Writer.visit Writer.increase
  split <;> [split <;> rfl; rfl]

/-- C48 (output schedule): the outputs of every writer, with step numbers, times and kind of data, are those that this
writer alone makes for the monitor calls with the maximum slip rate of the last evaluation (C43 describes them), and
the data is of the kind of the writer; other writers do not matter. -/
theorem C48_schedule (k : OpKind) (fsal : Bool) (P : Physics K S U R M B) (i : Nat) :
    ∀ (es : List (Event K S)) (c : Cache K U R M) (ws : List (Writer K)) (w : Writer K), ws[i]? = some w →
      ((run k fsal P c ws es).1.filter (fun r => r.writer = i)).map (fun r => (r.step, r.time, kindOfData r.data)) =
        ((w.run (qdCalls k P c.vmax es)).1.map fun o => (o.1, o.2.1, w.level)) := by
  intro es
  induction es with
  | nil => intro c ws w h; simp [run, qdCalls, Writer.run]
  | cons e es ih =>
    intro c ws w h
    cases e with
    | rhs t s => 
      have := ih (rhs k P c t s) ws w h
      rw [run, this]
      cases k <;> rfl
    | monitor t s =>
      have hne : ws.isEmpty = false := by cases ws <;> simp at h ⊢
      have hmon : ∃ c', c'.vmax = c.vmax ∧ monitor k fsal P c ws t s =
          ((writeAll P c' t s c.vmax 0 ws).1, c', (writeAll P c' t s c.vmax 0 ws).2) := by
        refine ⟨updateInternal k P c t s (!fsal) (ws.any (fun w => w.required t c.vmax && decide (w.level = .boundary)))
          (ws.any (fun w => w.required t c.vmax && decide (w.level = .volume))), ?_, ?_⟩
        · unfold updateInternal
          cases k <;> simp only <;> split <;> (try split) <;> rfl
        · unfold monitor
          rw [if_neg (by simp [hne])]
      obtain ⟨c', hc', hm⟩ := hmon
      obtain ⟨h1, h2, -⟩ := writeAll_writer P c' t s c.vmax i ws 0
      simp only [run, hm]
      rw [List.filter_append, List.map_append, ih c' _ (w.visit t c.vmax).2 (by rw [h2, h]; rfl), hc', visit_level]
      simp only [Nat.zero_add] at h1
      rw [h1, h, qdCalls, Writer.run]
      rcases hv : w.visit t c.vmax with ⟨_ | k, w'⟩ <;> simp [hv]

theorem run_records (k : OpKind) (fsal : Bool) (P : Physics K S U R M B)
    (Q : K → S → Payload K U B M → Prop) (I : Cache K U R M → List (Event K S) → Prop)
    (hrhs : ∀ c t s es, I c (.rhs t s :: es) → I (rhs k P c t s) es)
    (hmon : ∀ c ws t s es, I c (.monitor t s :: es) →
      I (monitor k fsal P c ws t s).2.1 es ∧ ∀ r ∈ (monitor k fsal P c ws t s).1, r.time = t ∧ Q t s r.data)
    (c : Cache K U R M) (ws : List (Writer K)) (es : List (Event K S)) (h : I c es) :
    ∀ r ∈ (run k fsal P c ws es).1, ∃ t s, Event.monitor t s ∈ es ∧ r.time = t ∧ Q t s r.data := by
  induction es generalizing c ws with
  | nil => simp [run]
  | cons e es ih =>
    cases e with
    | rhs t s =>
      intro r hr
      obtain ⟨t', s', a, b⟩ := ih _ ws (hrhs c t s es h) r hr
      exact ⟨t', s', by simp [a], b⟩
    | monitor t s =>
      intro r hr
      obtain ⟨hI, hq⟩ := hmon c ws t s es h
      simp only [run, List.mem_append] at hr
      rcases hr with hr | hr
      · exact ⟨t, s, by simp, hq r hr⟩
      · obtain ⟨t', s', a, b⟩ := ih _ _ hI r hr
        exact ⟨t', s', by simp [a], b⟩

theorem monitor_nonempty (k : OpKind) (fsal : Bool) (P : Physics K S U R M B) (c : Cache K U R M)
    (ws : List (Writer K)) (t : K) (s : S) (r : Record K U B M)
    (h : r ∈ (monitor k fsal P c ws t s).1) :
    r ∈ (writeAll P (updateInternal k P c t s (!fsal)
        (ws.any (fun w => w.required t c.vmax && decide (w.level = .boundary)))
        (ws.any (fun w => w.required t c.vmax && decide (w.level = .volume)))) t s c.vmax 0 ws).1 := by
  unfold monitor at h
  split at h
  · simp at h
  · exact h

/-- C48: with a time integrator that is not first-same-as-last, whatever was computed before, all fault and
volume data are computed from the time and state they are written for. -/
theorem C48_not_fsal (k : OpKind) (P : Physics K S U R M B) (c : Cache K U R M)
    (ws : List (Writer K)) (es : List (Event K S)) :
    ∀ r ∈ (run k false P c ws es).1,
      ∃ t s, Event.monitor t s ∈ es ∧ r.time = t ∧ FieldsCurrent k P t s r.data := by
  refine run_records k false P (FieldsCurrent k P) (fun _ _ => True) (fun _ _ _ _ _ => trivial) ?_ c ws es
    trivial
  intro c ws t s es _
  refine ⟨trivial, fun r hr => ?_⟩
  have hr := monitor_nonempty k false P c ws t s r hr
  obtain ⟨ht, w, hw, hreq, hd⟩ := payload_of_writeAll P _ t s c.vmax 0 ws r hr
  refine ⟨ht, ?_⟩
  rw [hd]
  cases hl : w.level with
  | scalar => trivial
  | momentRate => trivial
  | boundary =>
    have : ws.any (fun w => w.required t c.vmax && decide (w.level = .boundary)) = true := by
      rw [List.any_eq_true]; exact ⟨w, hw, by simp [hreq, hl]⟩
    simp only [payload, FieldsCurrent, this]
    cases k <;> simp only [updateInternal, tractionAt] <;> simp
    · split <;> rfl
  | volume =>
    have : ws.any (fun w => w.required t c.vmax && decide (w.level = .volume)) = true := by
      rw [List.any_eq_true]; exact ⟨w, hw, by simp [hreq, hl]⟩
    simp only [payload, FieldsCurrent, this]
    cases k <;> simp only [updateInternal] <;> simp
    · split <;> rfl

/-- The members belong to the time and state `cur`; the moment rate only if `m`. -/
def Synced (k : OpKind) (P : Physics K S U R M B) (m : Prop) (c : Cache K U R M) (cur : K × S) : Prop :=
  (k = .qd → c.disp = P.solve cur.1 cur.2) ∧ c.traction = tractionAt k P cur.1 cur.2 ∧
  c.vmax = P.vmax cur.1 (tractionAt k P cur.1 cur.2) cur.2 ∧
  (m → c.moment = P.moment cur.1 (tractionAt k P cur.1 cur.2) cur.2)

theorem synced_rhs (k : OpKind) (P : Physics K S U R M B) (m : Prop) (c : Cache K U R M) (t : K) (s : S) :
    Synced k P m (rhs k P c t s) (t, s) := by
  cases k <;> simp [Synced, rhs, tractionAt]

theorem fsal_records (k : OpKind) (P : Physics K S U R M B) (m : Prop) (c : Cache K U R M)
    (cur : K × S) (hc : Synced k P m c cur) (ws : List (Writer K)) (es : List (Event K S))
    (h : FirstSameAsLast cur es) :
    ∀ r ∈ (run k true P c ws es).1, ∃ t s, Event.monitor t s ∈ es ∧ r.time = t ∧
      (FieldsCurrent k P t s r.data ∧ ScalarCurrent k P t s r.data ∧ (m → MomentCurrent k P t s r.data)) := by
  refine run_records k true P
    (fun t s d => FieldsCurrent k P t s d ∧ ScalarCurrent k P t s d ∧ (m → MomentCurrent k P t s d))
    (fun c es => ∃ cur, Synced k P m c cur ∧ FirstSameAsLast cur es) ?_ ?_ c ws es ⟨cur, hc, h⟩
  · rintro c t s es ⟨cur, -, h⟩
    exact ⟨(t, s), synced_rhs k P m c t s, h⟩
  · rintro c ws t s es ⟨cur, hc, ⟨rfl, h⟩⟩
    constructor
    · refine ⟨(t, s), ?_, h⟩
      unfold monitor
      split
      · exact hc
      · cases k
        · simpa [updateInternal] using hc
        · simp only [updateInternal, Bool.not_true, Bool.false_and]
          obtain ⟨-, h2, h3, h4⟩ := hc
          split <;> exact ⟨fun e => (nomatch e), h2, h3, h4⟩
    · intro r hr
      have hr := monitor_nonempty k true P c ws t s r hr
      obtain ⟨ht, w, hw, hreq, hd⟩ := payload_of_writeAll P _ t s c.vmax 0 ws r hr
      refine ⟨ht, ?_⟩
      rw [hd]
      obtain ⟨h1, h2, h3, h4⟩ := hc
      cases hl : w.level with
      | scalar => exact ⟨trivial, h3, fun _ => trivial⟩
      | momentRate =>
        refine ⟨trivial, trivial, fun hm => ?_⟩
        cases k <;> simp only [payload, MomentCurrent, updateInternal, Bool.not_true, Bool.false_and] <;> simp
        · exact h4 hm
        · split <;> exact h4 hm
      | boundary =>
        refine ⟨?_, trivial, fun _ => trivial⟩
        cases k <;> simp only [payload, FieldsCurrent, updateInternal, Bool.not_true, Bool.false_and] <;> simp
        · rw [h2]
        · split <;> simp [h2]
      | volume =>
        refine ⟨?_, trivial, fun _ => trivial⟩
        have : ws.any (fun w => w.required t c.vmax && decide (w.level = .volume)) = true := by
          rw [List.any_eq_true]; exact ⟨w, hw, by simp [hreq, hl]⟩
        cases k <;> simp only [payload, FieldsCurrent, updateInternal, Bool.not_true, Bool.false_and, this] <;> simp
        · exact h1 rfl

/-- C48: with a first-same-as-last integrator, started from the initial condition, all scalar, fault and volume
data are computed from the time and state they are written for. -/
theorem C48_fsal (k : OpKind) (P : Physics K S U R M B) (hP : InitKeepsSlip k P) (u0 : U) (s0 : S)
    (ws : List (Writer K)) (es : List (Event K S))
    (h : FirstSameAsLast (0, (initial k P u0 s0).1) es) :
    ∀ r ∈ (run k true P (initial k P u0 s0).2 ws es).1,
      ∃ t s, Event.monitor t s ∈ es ∧ r.time = t ∧
        FieldsCurrent k P t s r.data ∧ ScalarCurrent k P t s r.data := by
  intro r hr
  have hs : Synced k P False (initial k P u0 s0).2 (0, (initial k P u0 s0).1) := by
    cases k
    · have hd := hP.disp s0 (P.trac (P.solve 0 s0) s0)
      have ht := hP.traction s0 (P.trac (P.solve 0 s0) s0)
      have hv := hP.vmax s0 (P.trac (P.solve 0 s0) s0)
      refine ⟨fun _ => hd.symm, ht.symm, ?_, fun f => f.elim⟩
      simp only [initial]
      rw [ht, hv]; rfl
    · have ht := hP.traction s0 (P.green 0 s0)
      have hv := hP.vmax s0 (P.green 0 s0)
      refine ⟨fun e => (nomatch e), ht.symm, ?_, fun f => f.elim⟩
      simp only [initial]
      rw [ht, hv]; rfl
  obtain ⟨t, s, a, b, c, d, -⟩ := fsal_records k P False _ _ hs ws es h r hr
  exact ⟨t, s, a, b, c, d⟩

/-- C48: once the right-hand side has been evaluated, a first-same-as-last integrator also gets current
moment rates. -/
theorem C48_fsal_moment_rate (k : OpKind) (P : Physics K S U R M B) (c : Cache K U R M) (t0 : K) (s0 : S)
    (ws : List (Writer K)) (es : List (Event K S)) (h : FirstSameAsLast (t0, s0) es) :
    ∀ r ∈ (run k true P c ws (.rhs t0 s0 :: es)).1,
      ∃ t s, Event.monitor t s ∈ es ∧ r.time = t ∧
        FieldsCurrent k P t s r.data ∧ ScalarCurrent k P t s r.data ∧ MomentCurrent k P t s r.data := by
  intro r hr
  obtain ⟨t, s, a, b, c, d, e⟩ :=
    fsal_records k P True _ _ (synced_rhs k P True c t0 s0) ws es h r hr
  exact ⟨t, s, a, b, c, d, e trivial⟩

/-- C48: the displacement from which the final error is computed (`app/tandem/SEAS.cpp` lines 175-179) is the
one of the final time and state, whatever was computed before. -/
theorem C48_final_displacement (k : OpKind) (P : Physics K S U R M B) (c : Cache K U R M) (t : K) (s : S) :
    (updateInternal k P c t s true false true).disp = P.solve t s := by
  cases k <;> rfl

/-- A physics in which every quantity records where it was computed. -/
def tagged : Physics ℚ ℕ (ℚ × ℕ) (ℚ × ℕ) (ℚ × ℕ) ((ℚ × ℕ) × ℚ × ℕ) where
  solve t s := (t, s)
  trac u _ := u
  green t s := (t, s)
  vmax t _ s := t + s
  moment t _ s := (t, s)
  init _ _ s := s
  vmaxInit t _ s := t + s
  fault t r s := (r, t, s)
  noMoment := (-1, 0)

example : InitKeepsSlip .qd tagged := ⟨fun _ _ => rfl, fun _ _ => rfl, fun _ _ => rfl⟩
example : FirstSameAsLast ((0 : ℚ), 7)
    [.monitor 0 7, .rhs (1 / 2) 8, .rhs 1 9, .monitor 1 9] := ⟨rfl, rfl, trivial⟩

/-- C48, negative: with an integrator that is not first-same-as-last the moment rate and the maximum slip rate
that are written at time 1 belong to the last stage (here time 1/2), not to the accepted state. -/
theorem C48_moment_rate_stale :
    ((run .qd false tagged (initial .qd tagged (0, 0) 7).2
        [Writer.new (-1000) ⟨1 / 10, 0, 0, 0⟩ .momentRate, Writer.new (-1000) ⟨1 / 10, 0, 0, 0⟩ .scalar]
        [.rhs (1 / 2) 8, .monitor 1 9]).1.map
      (fun r => (r.time, match r.data with | .moment m => m | .scalar v => (v, 0) | _ => (0, 0))))
    = [(1, (1 / 2, 8)), (1, (17 / 2, 0))] := by decide +kernel

/-- C48, negative: after a restart from a checkpoint the integrator first calls the monitor with the loaded
time and state; with a first-same-as-last scheme the fault data written then are computed from the traction of
the initial condition (time 0). -/
theorem C48_restart_stale :
    ((run .qd true tagged (initial .qd tagged (0, 0) 7).2
        [Writer.new (-1000) ⟨1 / 10, 0, 0, 0⟩ .boundary]
        [.monitor 50 9]).1.map
      (fun r => (r.time, match r.data with | .fault b => b.1 | _ => (1000, 0))))
    = [(50, (0, 7))] := by decide +kernel

end C48

end Tandem.Monitor
