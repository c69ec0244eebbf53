import Verif.Spec.SeasRun
import Verif.Props.Monitor
import Verif.Props.SeasOp
import Verif.Props.Main
/-! # The run of the program tandem (C100) -/
namespace Tandem.SeasRun
open Tandem.Spec
open Tandem.Monitor (Level Writer)
open Tandem.DGTopo (View BMap boundaryMap)

section Fd
variable {K : Type} [Field K] [LinearOrder K] {U S R M B : Type}

theorem mem_writeAll (P : Physics K U S R M B) (D : Nat) (p : Problem) (c : Cache K R M) (t : K) (v u : U)
    (s : S) (V : K) : ∀ (ws : List (Writer K)) (i : Nat) (r : Record K U B M),
    r ∈ (writeAll P D p c t v u s V i ws).1 →
      r.time = t ∧ ∃ w ∈ ws, w.required t V = true ∧ r.data = payload P D p c t v u s V w.level := by
  intro ws
  induction ws with
  | nil => intro i r h; simp [writeAll] at h
  | cons w ws ih =>
    intro i r h
    simp only [writeAll, Writer.visit] at h
    by_cases hr : w.required t V = true
    · simp only [if_pos hr, List.mem_cons] at h
      rcases h with rfl | h
      · exact ⟨rfl, w, by simp, hr, rfl⟩
      · obtain ⟨a, w', b, c'⟩ := ih (i + 1) r h
        exact ⟨a, w', List.mem_cons_of_mem _ b, c'⟩
    · simp only [if_neg hr] at h
      obtain ⟨a, w', b, c'⟩ := ih (i + 1) r h
      exact ⟨a, w', List.mem_cons_of_mem _ b, c'⟩

theorem mem_monitor (P : Physics K U S R M B) (D : Nat) (p : Problem) (c : Cache K R M) (ws : List (Writer K))
    (t : K) (v u : U) (s : S) (r : Record K U B M) (h : r ∈ (monitor P D p c ws t v u s).1) :
    r.time = t ∧ ∃ w ∈ ws, w.required t c.vmax = true ∧ r.data = payload P D p c t v u s c.vmax w.level := by
  unfold monitor at h
  split at h
  · simp at h
  · exact mem_writeAll P D p c t v u s c.vmax ws 0 r h

/-- The members after a history. -/
def cacheAfter (P : Physics K U S R M B) (c : Cache K R M) : List (Event K U S) → Cache K R M
  | [] => c
  | .rhs t _ u s :: es => cacheAfter P (rhs P t u s) es
  | .monitor _ _ _ _ :: es => cacheAfter P c es

theorem cacheAfter_lastEval (P : Physics K U S R M B) : ∀ (es : List (Event K U S)) (c : Cache K R M) (t u s),
    lastEval es = some (t, u, s) → cacheAfter P c es = rhs P t u s := by
  intro es
  induction es with
  | nil => intro c t u s h; simp [lastEval] at h
  | cons e es ih =>
    intro c t u s h
    simp only [lastEval] at h
    cases hl : lastEval es with
    | some x =>
      rw [hl] at h
      obtain rfl := Option.some.inj h
      cases e <;> exact ih _ _ _ _ hl
    | none =>
      rw [hl] at h
      have key : ∀ (es : List (Event K U S)) (c : Cache K R M), lastEval es = none → cacheAfter P c es = c := by
        intro es
        induction es with
        | nil => intros; rfl
        | cons e es ih =>
          intro c h
          simp only [lastEval] at h
          cases hl : lastEval es with
          | some x => rw [hl] at h; cases h
          | none =>
            rw [hl] at h
            cases e with
            | rhs => cases h
            | monitor => exact ih c hl
      cases e with
      | rhs t' v' u' s' =>
        simp only [Option.some.injEq, Prod.mk.injEq] at h
        obtain ⟨rfl, rfl, rfl⟩ := h
        exact key es _ hl
      | monitor => cases h

theorem mem_run (P : Physics K U S R M B) (D : Nat) (p : Problem) : ∀ (es : List (Event K U S))
    (c : Cache K R M) (ws : List (Writer K)) (r : Record K U B M), r ∈ run P D p c ws es →
    ∃ a b t v u s l V, es = a ++ .monitor t v u s :: b ∧ r.time = t ∧ V = (cacheAfter P c a).vmax ∧
      r.data = payload P D p (cacheAfter P c a) t v u s V l := by
  intro es
  induction es with
  | nil => intro c ws r h; simp [run] at h
  | cons e es ih =>
    intro c ws r h
    cases e with
    | rhs t v u s =>
      obtain ⟨a, b, t', v', u', s', l, V, rfl, h1, h2, h3⟩ := ih _ _ _ h
      exact ⟨.rhs t v u s :: a, b, t', v', u', s', l, V, rfl, h1, h2, h3⟩
    | monitor t v u s =>
      rw [run, List.mem_append] at h
      rcases h with h | h
      · obtain ⟨h1, w, -, -, h2⟩ := mem_monitor P D p c ws t v u s r h
        exact ⟨[], es, t, v, u, s, w.level, _, rfl, h1, rfl, h2⟩
      · obtain ⟨a, b, t', v', u', s', l, V, rfl, h1, h2, h3⟩ := ih _ _ _ h
        exact ⟨.monitor t v u s :: a, b, t', v', u', s', l, V, rfl, h1, h2, h3⟩

/-- C100 (volume output of a fully dynamic run): whatever integrator is used, every volume record holds the
velocity and the displacement of the time it is written for, velocity first, under the names of velocity and
displacement; all names of the record are different. -/
theorem C100_fd_volume (P : Physics K U S R M B) (D : Nat) (p : Problem) (c : Cache K R M)
    (ws : List (Writer K)) (es : List (Event K U S)) :
    ∀ r ∈ run P D p c ws es, ∀ fs, r.data = .volume fs →
      ∃ t v u s, Event.monitor t v u s ∈ es ∧ r.time = t ∧
        ∃ vn un, fs = [(vn, v), (un, u)] ∧ vn.length = numQuantities D p ∧ un.length = numQuantities D p ∧
          (vn ++ un).Nodup := by
  intro r hr fs hfs
  obtain ⟨a, b, t, v, u, s, l, V, rfl, h1, -, h3⟩ := mem_run P D p es c ws r hr
  refine ⟨t, v, u, s, by simp, h1, velocityNames (numQuantities D p), solutionNames D p, ?_, ?_, ?_, ?_⟩
  · rw [h3] at hfs
    cases l <;> simp only [payload, Payload.volume.injEq, reduceCtorEq] at hfs
    exact hfs.symm
  · simp [velocityNames]
  · cases p <;> simp [solutionNames, numQuantities]
  · have hinj : ∀ (x : String) (n : Nat), ((List.range n).map (fun q => x ++ toString q)).Nodup := by
      intro x n
      refine List.Nodup.map_on ?_ List.nodup_range
      intro i _ j _ h
      have := congrArg String.toList h
      simp only [String.toList_append, List.append_cancel_left_eq] at this
      have h2 : Nat.toDigits 10 i = Nat.toDigits 10 j := by
        rw [← Nat.toList_repr, ← Nat.toList_repr]; exact this
      rw [← Nat.ofDigitChars_toDigits (b := 10) (n := i) (by decide) (by decide), h2,
        Nat.ofDigitChars_toDigits (by decide) (by decide)]
    have hv : ∀ (n : Nat) (x : String), x ∈ velocityNames n → x.toList.head? = some 'v' := by
      intro n x hx
      obtain ⟨q, -, rfl⟩ := List.mem_map.1 hx
      simp [String.toList_append]
    have hu : ∀ (x : String), x ∈ solutionNames D p → x.toList.head? = some 'u' := by
      intro x hx
      cases p with
      | poisson => rw [List.mem_singleton.1 hx]; rfl
      | elasticity =>
        obtain ⟨q, -, rfl⟩ := List.mem_map.1 hx
        simp [String.toList_append]
    rw [List.nodup_append]
    refine ⟨hinj "v" _, ?_, ?_⟩
    · cases p
      · simp [solutionNames]
      · exact hinj "u" _
    · rintro x hx y hy rfl
      have := (hv _ x hx).symm.trans (hu x hy)
      simp at this

/-- C100 (what a fully dynamic run writes): the data of every record come from a monitor call - the fault state
and the volume fields of that call - together with the traction, maximum slip rate and moment rate of the last
evaluation of the right-hand side before it, whatever the integrator. -/
theorem C100_fd_last (P : Physics K U S R M B) (D : Nat) (p : Problem) (c : Cache K R M)
    (ws : List (Writer K)) (es : List (Event K U S)) :
    ∀ r ∈ run P D p c ws es, ∃ a b t v u s, es = a ++ .monitor t v u s :: b ∧ r.time = t ∧
      ∀ t' u' s', lastEval a = some (t', u', s') → WrittenWith P t v u s t' u' s' r.data := by
  intro r hr
  obtain ⟨a, b, t, v, u, s, l, V, rfl, h1, h2, h3⟩ := mem_run P D p es c ws r hr
  refine ⟨a, b, t, v, u, s, rfl, h1, ?_⟩
  intro t' u' s' hl
  rw [h3, h2, cacheAfter_lastEval P a c t' u' s' hl]
  cases l <;> simp [payload, WrittenWith, rhs]

theorem run_current (P : Physics K U S R M B) (D : Nat) (p : Problem) : ∀ (es : List (Event K U S))
    (c : Cache K R M) (ws : List (Writer K)) (cur : K × U × S),
    c.traction = P.trac cur.2.1 cur.2.2 → c.vmax = P.vmax cur.1 (P.trac cur.2.1 cur.2.2) cur.2.2 →
    FDFirstSameAsLast cur es → ∀ r ∈ run P D p c ws es,
      ∃ t v u s, Event.monitor t v u s ∈ es ∧ r.time = t ∧ FDCurrent P t v u s r.data := by
  intro es
  induction es with
  | nil => intro c ws cur _ _ _ r h; simp [run] at h
  | cons e es ih =>
    intro c ws cur hc hv hf r h
    cases e with
    | rhs t v u s =>
      obtain ⟨t', v', u', s', a, b⟩ := ih (rhs P t u s) ws (t, u, s) rfl rfl hf r h
      exact ⟨t', v', u', s', List.mem_cons_of_mem _ a, b⟩
    | monitor t v u s =>
      obtain ⟨rfl, hf⟩ := hf
      rw [run, List.mem_append] at h
      rcases h with h | h
      · obtain ⟨h1, w, -, -, h2⟩ := mem_monitor P D p c ws t v u s r h
        refine ⟨t, v, u, s, by simp, h1, ?_⟩
        rw [h2]
        cases w.level <;> simp [payload, FDCurrent, WrittenWith, hc, hv]
      · obtain ⟨t', v', u', s', a, b⟩ := ih _ _ _ hc hv hf r h
        exact ⟨t', v', u', s', List.mem_cons_of_mem _ a, b⟩

/-- C100 (first-same-as-last integrators): if every monitor call is for the state of the last evaluation of the
right-hand side, or of the initial condition, all scalar, fault and volume data belong to the time and state
they are written for. -/
theorem C100_fd_fsal (P : Physics K U S R M B) (D : Nat) (p : Problem) (c : Cache K R M) (t0 : K) (u0 : U)
    (s0 : S) (hc : c.traction = P.trac u0 s0) (hv : c.vmax = P.vmax t0 (P.trac u0 s0) s0)
    (ws : List (Writer K)) (es : List (Event K U S)) (h : FDFirstSameAsLast (t0, u0, s0) es) :
    ∀ r ∈ run P D p c ws es,
      ∃ t v u s, Event.monitor t v u s ∈ es ∧ r.time = t ∧ FDCurrent P t v u s r.data :=
  run_current P D p es c ws (t0, u0, s0) hc hv h

/-- A physics in which every quantity records where it was computed. -/
def taggedFD : Physics ℚ ℕ ℕ (ℕ × ℕ) (ℚ × ℕ) ((ℕ × ℕ) × ℚ × ℕ) where
  trac u s := (u, s)
  vmax t _ s := t + s
  moment t _ s := (t, s)
  fault t r s := (r, t, s)

/-- C100 (finding): for other integrators the fault output is stale. With the explicit Euler method - evaluate
at the old state, step, call the monitor for the new state - the fault record of the new time holds the traction
of the old state, and the maximum slip rate is that of the old time: the monitor never asks for an update,
unlike the quasi-dynamic monitor (`C48_not_fsal`). -/
theorem C100_fd_stale :
    let es : List (Event ℚ ℕ ℕ) := [.rhs 0 0 5 7, .monitor 1 0 6 8]
    let ws := [Writer.new (-1000 : ℚ) ⟨0, 0, 0, 0⟩ .boundary, Writer.new (-1000 : ℚ) ⟨0, 0, 0, 0⟩ .scalar]
    ∃ r1 r2, run taggedFD 2 .poisson ⟨(0, 0), 0, (0, 0)⟩ ws es = [r1, r2] ∧
      r1.time = 1 ∧ r1.data = .fault ((5, 7), 1, 8) ∧ r2.time = 1 ∧ r2.data = .scalar 7 ∧
      ¬ FDCurrent taggedFD 1 0 6 8 r1.data ∧ ¬ FDCurrent taggedFD 1 0 6 8 r2.data := by
  refine ⟨⟨0, 0, 1, .fault ((5, 7), 1, 8)⟩, ⟨1, 0, 1, .scalar 7⟩, ?_, rfl, rfl, rfl, rfl, ?_, ?_⟩
  · have h : ∀ l V, ((Writer.new (-1000 : ℚ) ⟨0, 0, 0, 0⟩ l).required 1 V) = true := by
      intro l V
      simp [Writer.required, Writer.new, Monitor.Interval.due]
      left; norm_num
    simp [run, monitor, writeAll, Writer.visit, h, payload, rhs, taggedFD]
    exact ⟨⟨rfl, rfl⟩, rfl, rfl⟩
  · simp [FDCurrent, WrittenWith, taggedFD]
  · simp [FDCurrent, WrittenWith, taggedFD]; norm_num

example : FDFirstSameAsLast ((0 : ℚ), 5, 7)
    [.monitor 0 0 5 7, .rhs (1 / 2) 1 6 8, .rhs 1 1 6 9, .monitor 1 1 6 9] := ⟨rfl, rfl, trivial⟩

theorem writeAll_writer (P : Physics K U S R M B) (D : Nat) (p : Problem) (c : Cache K R M) (t : K) (v u : U) (s : S) (V : K) (i : Nat) :
    ∀ (ws : List (Writer K)) (o : Nat),
      ((writeAll P D p c t v u s V o ws).1.filter (fun r => r.writer = o + i)).map (fun r => (r.step, r.time, fdKindOfData r.data)) =
        (ws[i]?.bind fun w => (w.visit t V).1.map fun k => (k, t, w.level)).toList ∧
      (writeAll P D p c t v u s V o ws).2[i]? = ws[i]?.map (fun w => (w.visit t V).2) ∧
      ∀ r ∈ (writeAll P D p c t v u s V o ws).1, o ≤ r.writer := by
  intro ws
  induction ws generalizing i with
  | nil => intro o; simp [writeAll]
  | cons w ws ih =>
    intro o
    have hge := (ih 0 (o + 1)).2.2
    have hnone : ((writeAll P D p c t v u s V (o + 1) ws).1.filter (fun r => decide (r.writer = o))) = [] := by
      rw [List.filter_eq_nil_iff]
      intro r hr; have := hge r hr; simp; omega
    have hk : fdKindOfData (payload P D p c t v u s V w.level) = w.level := by cases w.level <;> rfl
    cases hv : w.visit t V with
    | mk k w' =>
      cases i with
      | zero =>
        cases k with
        | none =>
          simp only [writeAll, hv, Nat.add_zero]
          refine ⟨by rw [hnone]; simp [hv], by simp [hv], fun r hr => by have := hge r hr; omega⟩
        | some k =>
          simp only [writeAll, hv, Nat.add_zero]
          refine ⟨by rw [List.filter_cons_of_pos (by simp), hnone]; simp [hv, hk], by simp [hv], fun r hr => ?_⟩
          rcases List.mem_cons.1 hr with rfl | hr
          · exact le_rfl
          · have := hge r hr; omega
      | succ i =>
        obtain ⟨h1, h2, -⟩ := ih i (o + 1)
        rw [show o + 1 + i = o + (i + 1) by omega] at h1
        cases k with
        | none =>
          simp only [writeAll, hv]
          exact ⟨by simpa using h1, by simpa using h2, fun r hr => by have := hge r hr; omega⟩
        | some k =>
          simp only [writeAll, hv]
          refine ⟨by rw [List.filter_cons_of_neg (by simp)]; simpa using h1, by simpa using h2, fun r hr => ?_⟩
          rcases List.mem_cons.1 hr with rfl | hr
          · exact le_rfl
          · have := hge r hr; omega

/-- C100 (output schedule of a fully dynamic run): the outputs of every writer, with their step numbers, times and kind of data, are
those that this writer alone makes for the monitor calls with the maximum slip rate of the last evaluation (C43
describes them); other writers do not matter. -/
theorem C100_fd_schedule (P : Physics K U S R M B) (D : Nat) (p : Problem) (i : Nat) :
    ∀ (es : List (Event K U S)) (c : Cache K R M) (ws : List (Writer K)) (w : Writer K), ws[i]? = some w →
      ((run P D p c ws es).filter (fun r => r.writer = i)).map (fun r => (r.step, r.time, fdKindOfData r.data)) =
        ((w.run (fdCalls P c.vmax es)).1.map fun o => (o.1, o.2.1, w.level)) := by
  intro es
  induction es with
  | nil => intro c ws w h; simp [run, fdCalls, Writer.run]
  | cons e es ih =>
    intro c ws w h
    cases e with
    | rhs t v u s => exact ih _ ws w h
    | monitor t v u s =>
      have hne : ws.isEmpty = false := by cases ws <;> simp at h ⊢
      obtain ⟨h1, h2, -⟩ := writeAll_writer P D p c t v u s c.vmax i ws 0
      rw [run, monitor, if_neg (by simp [hne]), List.filter_append, List.map_append, ih c _ (w.visit t c.vmax).2 (by rw [h2, h]; rfl), (by unfold Writer.visit Writer.increase; split <;> [split <;> rfl; rfl] : (w.visit t c.vmax).2.level = w.level)]
      simp only [Nat.zero_add] at h1
      rw [h1, h, fdCalls, Writer.run]
      rcases hv : w.visit t c.vmax with ⟨_ | k, w'⟩ <;> simp [hv]

end Fd

/-! ## Static output -/

theorem mem_staticOutput (m : Mon) (hdf5 : Bool) (probes : Main.Writer → List Nat) (ws : List Main.Writer)
    (f : StaticFile) : f ∈ staticOutput m hdf5 probes ws ↔ ∃ w ∈ ws,
      (w.kind = .fault ∧ f = .vtu (w.pre ++ "-static".toList) (.fault none)) ∨
      (w.kind = .domain ∧ f = .vtu (w.pre ++ "-static".toList) (.domain none)) ∨
      (w.kind = .momentRate ∧ m = .qd ∧ hdf5 = true ∧ f = .facets w.pre) ∨
      ((w.kind = .faultProbe ∨ w.kind = .domainProbe) ∧ w.format = some .hdf5 ∧ f = .probes w.pre) := by
  unfold staticOutput
  rw [List.mem_flatMap]
  refine exists_congr fun w => and_congr_right fun _ => ?_
  obtain ⟨k, p, fo⟩ := w
  cases k <;> cases m <;> cases hdf5 <;>
    simp [levelOf, writeStatic, subsetOf, onStatic] <;> (try split) <;> simp_all

/-- C100 (static output): the files written before the first step are exactly: the parameters of friction on all
fault facets of the rank in `<prefix>-static` for a fault output section, the material on all its elements in
`<prefix>-static` for a domain output section, positions and names of probes for probe sections in HDF5 format -
and, only in the quasi-dynamic modes and only with HDF5, the vertices and numbers of the fault facets for a
moment rate section. -/
theorem C100_static (m : Mon) (hdf5 : Bool) (o : Main.Outputs)
    (hs : ∀ p t, o.faultScalar = some (p, t) → t = .csv ∨ t = .tecplot)
    (hf : ∀ p t n, o.faultProbe = some (p, t, n) →
      t = .csv ∨ t = .tecplot ∨ (t = .hdf5 ∧ hdf5 = true))
    (hd : ∀ p t n, o.domainProbe = some (p, t, n) →
      t = .csv ∨ t = .tecplot ∨ (t = .hdf5 ∧ hdf5 = true))
    (ws : List Main.Writer) (hw : Main.addWriters hdf5 o = some ws) (probes : Main.Writer → List Nat)
    (f : StaticFile) :
    f ∈ staticOutput m hdf5 probes ws ↔
      (∃ p, o.fault = some p ∧ f = .vtu (p ++ "-static".toList) (.fault none)) ∨
      (∃ p, o.domain = some p ∧ f = .vtu (p ++ "-static".toList) (.domain none)) ∨
      (∃ p, o.momentRate = some p ∧ m = .qd ∧ hdf5 = true ∧ f = .facets p) ∨
      (∃ p n, (o.faultProbe = some (p, .hdf5, n) ∨ o.domainProbe = some (p, .hdf5, n)) ∧ 0 < n ∧
        f = .probes p) := by
  obtain ⟨-, h⟩ := Main.C53_writers hdf5 o hs hf hd
  obtain ⟨-, h⟩ := h ws hw
  rw [mem_staticOutput]
  constructor
  · rintro ⟨⟨k, p, fo⟩, hw, h1⟩
    rw [h] at hw
    rcases h1 with ⟨hk, rfl⟩ | ⟨hk, rfl⟩ | ⟨hk, hm, h5, rfl⟩ | ⟨hk, hfo, rfl⟩
    · simp only at hk; subst hk
      simp only [reduceCtorEq, false_and, or_false, true_and, exists_false, exists_const] at hw
      exact Or.inl ⟨p, hw.1, rfl⟩
    · simp only at hk; subst hk
      simp only [reduceCtorEq, false_and, or_false, false_or, true_and, exists_false, exists_const] at hw
      exact Or.inr (Or.inl ⟨p, hw.1, rfl⟩)
    · simp only at hk; subst hk
      simp only [reduceCtorEq, false_and, or_false, false_or, true_and, exists_false, exists_const] at hw
      exact Or.inr (Or.inr (Or.inl ⟨p, hw.2.1, hm, h5, rfl⟩))
    · simp only at hk hfo
      rcases hk with hk | hk
      · subst hk hfo
        simp only [reduceCtorEq, false_and, or_false, false_or, true_and, exists_false, exists_const] at hw
        obtain ⟨t, n, a, b, c⟩ := hw
        obtain rfl := Option.some.inj c
        exact Or.inr (Or.inr (Or.inr ⟨p, n, Or.inl a, b, rfl⟩))
      · subst hk hfo
        simp only [reduceCtorEq, false_and, or_false, false_or, true_and, exists_false, exists_const] at hw
        obtain ⟨t, n, a, b, c⟩ := hw
        obtain rfl := Option.some.inj c
        exact Or.inr (Or.inr (Or.inr ⟨p, n, Or.inr a, b, rfl⟩))
  · rintro (⟨p, a, rfl⟩ | ⟨p, a, rfl⟩ | ⟨p, a, hm, h5, rfl⟩ | ⟨p, n, a, b, rfl⟩)
    · exact ⟨⟨.fault, p, none⟩, (h _).2 (by simp [a]), by simp⟩
    · exact ⟨⟨.domain, p, none⟩, (h _).2 (by simp [a]), by simp⟩
    · exact ⟨⟨.momentRate, p, none⟩, (h _).2 (by simp [a, h5]), by simp [hm, h5]⟩
    · rcases a with a | a
      · exact ⟨⟨.faultProbe, p, some .hdf5⟩, (h _).2 (by simp [a, b]), by simp⟩
      · exact ⟨⟨.domainProbe, p, some .hdf5⟩, (h _).2 (by simp [a, b]), by simp⟩

/-- C100 (data requested for static output): probe writers get the parameters at their probes only, fault and domain
output the parameters everywhere; nothing is computed for scalar output. -/
theorem C100_static_requests (m : Mon) (hdf5 : Bool) (probes : List Nat) (k : Main.WriterKind) :
    writeStatic m hdf5 (levelOf k) (subsetOf probes k) =
      match k with
      | .faultProbe => some (.fault (some probes))
      | .domainProbe => some (.domain (some probes))
      | .fault => some (.fault none)
      | .domain => some (.domain none)
      | .faultScalar => none
      | .momentRate => if m = .qd ∧ hdf5 = true then some .nothing else none := by
  cases k <;> cases m <;> cases hdf5 <;> rfl

/-- C100 (finding): the moment rate file of a fully dynamic run never gets the vertices and numbers of the fault
facets, so its rows cannot be assigned to places; the quasi-dynamic run of the same configuration writes them. -/
theorem C100_fd_no_facets (probes : Main.Writer → List Nat) :
    ∃ ws, Main.addWriters true ⟨none, none, none, none, none, some "m".toList⟩ = some ws ∧
      staticOutput .fd true probes ws = [] ∧ staticOutput .qd true probes ws = [.facets "m".toList] :=
  ⟨_, rfl, rfl, rfl⟩

/-! ## Functions on elements -/

/-- C100 (output of a distributed vector): if a distributed vector holds block `X e` for every element `e`, the
function for output on a rank has, for every requested local element in the order requested - all local elements
if nothing is requested - the block of that element. -/
theorem C100_solution {P D bs : Nat} {elems : Nat → List (List Nat)} {num fnum tag : List Nat → Nat}
    {views : Nat → View} {α : Type} (hd : IsDistributed P D elems num fnum tag views)
    {X : List Nat → List α} {xs : List (List α)} (hX : HoldsField P elems views bs X xs)
    {r : Nat} (hr : r < P) {x : List α} (hx : xs[r]? = some x) (subset : Option (List Nat))
    (hsub : ∀ l, subset = some l → ∀ e ∈ l, e < (views r).numLocal) :
    ∃ fs, solutionOf bs x (views r).numLocal subset = some fs ∧
      fs.length = (subset.getD (List.range (views r).numLocal)).length ∧
      ∀ (i e : Nat) (el : List Nat), (subset.getD (List.range (views r).numLocal))[i]? = some e →
        (views r).elems[e]? = some el → fs[i]? = some (X el) := by
  have hv := hd.view r hr
  set n := (views r).numLocal with hn
  have hnl : n = (elems r).length := hv.numLocal
  set L := (views r).elems.take (elems r).length with hL
  have hxe : x = L.flatMap X := by
    have := hX.2 r hr
    rw [hx] at this
    exact Option.some.inj this
  have hLlen : L.length = n := by rw [hnl]; exact hv.ownFirst.length_eq
  have hlenX : ∀ el ∈ L, (X el).length = bs := fun el hel =>
    hX.1 el ⟨r, hr, (hv.ownFirst.mem_iff).1 hel⟩
  have hblock : ∀ (l : List (List Nat)), (∀ el ∈ l, (X el).length = bs) → ∀ (e : Nat) (el : List Nat),
      l[e]? = some el → ((l.flatMap X).drop (e * bs)).take bs = X el := by
    intro l
    induction l with
    | nil => intro _ e el h; simp at h
    | cons a l ih =>
      intro hl e el h
      have ha : (X a).length = bs := hl a (by simp)
      cases e with
      | zero =>
        simp only [List.getElem?_cons_zero, Option.some.injEq] at h
        subst h
        rw [List.flatMap_cons, Nat.zero_mul, List.drop_zero, List.take_append_of_le_length (by omega),
          List.take_of_length_le (by omega)]
      | succ e =>
        rw [List.getElem?_cons_succ] at h
        rw [List.flatMap_cons, ← ih (fun el h => hl el (List.mem_cons_of_mem _ h)) e el h,
          List.drop_append, List.drop_eq_nil_of_le (by rw [ha]; exact Nat.le_mul_of_pos_left _ (by omega)),
          List.nil_append]
        congr 2
        rw [ha, Nat.succ_mul]; omega
  have hall : ∀ (l : List Nat), (∀ e ∈ l, e < n) → solution bs x n l =
      some (l.map (fun e => (x.drop (e * bs)).take bs)) := by
    intro l
    unfold solution
    induction l with
    | nil => intro _; rfl
    | cons a l ih =>
      intro h
      rw [List.mapM_cons, if_pos (h a (by simp)), ih (fun e he => h e (List.mem_cons_of_mem _ he))]
      rfl
  have hso : solutionOf bs x n subset = solution bs x n (subset.getD (List.range n)) := by
    cases subset <;> rfl
  have hlt : ∀ e ∈ subset.getD (List.range n), e < n := by
    cases subset with
    | none => intro e he; exact List.mem_range.1 he
    | some l => exact hsub l rfl
  refine ⟨_, hso.trans (hall _ hlt), by rw [List.length_map], ?_⟩
  intro i e el hi hel
  rw [List.getElem?_map, hi, Option.map_some]
  have he := hlt e (List.mem_of_getElem? hi)
  have : L[e]? = some el := by
    rw [hL, List.getElem?_take_of_lt (by omega)]; exact hel
  rw [hxe, hblock L hlenX e el this]

/-- C100 (static volume output): the function has, for every requested local element in the order requested - all
local elements if nothing is requested - the material coefficients of that element. -/
theorem C100_params {α : Type} (coeff : Nat → List α) (n : Nat) (subset : Option (List Nat))
    (hsub : ∀ l, subset = some l → ∀ e ∈ l, e < n) :
    params coeff n subset = some ((subset.getD (List.range n)).map coeff) := by
  have hlt : ∀ e ∈ subset.getD (List.range n), e < n := by
    cases subset with
    | none => intro e he; exact List.mem_range.1 he
    | some l => exact hsub l rfl
  unfold params
  generalize subset.getD (List.range n) = l at hlt
  induction l with
  | nil => rfl
  | cons a l ih =>
    rw [List.mapM_cons, if_pos (hlt a (by simp)), ih (fun e he => hlt e (List.mem_cons_of_mem _ he))]
    rfl

/-! ## Numbers in the report -/

theorem reduceSum_eq (l : List Nat) : reduceSum l = l.sum := by
  unfold reduceSum
  rw [List.sum_eq_foldl]

theorem sum_map_mul {α : Type} (l : List α) (f : α → Nat) (b : Nat) :
    (l.map (fun a => f a * b)).sum = (l.map f).sum * b := by
  induction l with
  | nil => simp
  | cons a l ih => simp [ih, Nat.add_mul]

theorem length_flatMap_range {α : Type} (P : Nat) (g : Nat → List α) :
    ((List.range P).flatMap g).length = ((List.range P).map (fun r => (g r).length)).sum := by
  rw [List.length_flatMap]

theorem nodup_flatMap_range {α : Type} (P : Nat) (g : Nat → List α) (h1 : ∀ r, r < P → (g r).Nodup)
    (h2 : ∀ r s, r < P → s < P → r ≠ s → ∀ x ∈ g r, x ∉ g s) : ((List.range P).flatMap g).Nodup := by
  rw [List.nodup_flatMap]
  refine ⟨fun r hr => h1 r (List.mem_range.1 hr), ?_⟩
  refine (List.nodup_range (n := P)).imp_of_mem ?_
  intro a b ha hb hab x hx hy
  exact h2 a b (List.mem_range.1 ha) (List.mem_range.1 hb) hab x hx hy

/-- C100 (unknowns of the domain): the reported number is the number of elements of the mesh times the size of a
block, however the mesh is distributed. -/
theorem C100_dofs_domain {P D : Nat} {elems : Nat → List (List Nat)} {num fnum tag : List Nat → Nat}
    {views : Nat → View} (hd : IsDistributed P D elems num fnum tag views) (bs : Nat)
    (all : List (List Nat)) (hall : ListsElements P elems all) :
    reduceSum ((List.range P).map (fun r => dofsDomain bs (views r))) = all.length * bs := by
  have hn : ((List.range P).flatMap elems).Nodup :=
    nodup_flatMap_range P elems hd.mesh.nodup (fun r s hr hs hrs x hx => hd.mesh.disjoint r s hr hs hrs x hx)
  have hp : all.Perm ((List.range P).flatMap elems) := by
    rw [List.perm_ext_iff_of_nodup hall.1 hn]
    intro e
    rw [hall.2 e, List.mem_flatMap]
    constructor
    · rintro ⟨s, hs, he⟩; exact ⟨s, List.mem_range.2 hs, he⟩
    · rintro ⟨s, hs, he⟩; exact ⟨s, List.mem_range.1 hs, he⟩
  rw [hp.length_eq, length_flatMap_range, reduceSum_eq, ← sum_map_mul]
  congr 1
  refine List.map_congr_left fun r hr => ?_
  unfold dofsDomain
  rw [(hd.view r (List.mem_range.1 hr)).numLocal, Nat.mul_comm]

/-- C100 (unknowns of the fault): the reported number is the number of fault facets of the mesh times the size of
a block, however the mesh is distributed: facets between ranks are not counted twice. -/
theorem C100_dofs_fault {P D : Nat} {elems : Nat → List (List Nat)} {num fnum tag : List Nat → Nat}
    {views : Nat → View} (hd : IsDistributed P D elems num fnum tag views) (bs bc : Nat)
    (hsmall : ∀ r, r < P → (views r).numLocalFacets ≤ 2 ^ 64 - 1)
    (maps : Nat → BMap) (hmaps : ∀ r, r < P → boundaryMap (views r) bc = some (maps r))
    (all : List (List Nat)) (hall : ListsFacets P elems tag bc all) :
    reduceSum ((List.range P).map (fun r => dofsFault bs (maps r))) = all.length * bs := by
  let g : Nat → List (List Nat) := fun r => (maps r).localFctNos.map (fun i => (views r).facets.getD i [])
  -- what a rank lists
  have hget : ∀ r, r < P → ∀ i ∈ (maps r).fctNos, i < (views r).facets.length ∧ i < (views r).numLocalFacets ∧
      (views r).bc[i]? = some bc := by
    intro r hr i hi
    obtain ⟨m, h0, h1, h2, -⟩ := DGTopo.C31_boundary_map hd r hr bc (hsmall r hr)
    have : m = maps r := Option.some.inj (h0.symm.trans (hmaps r hr))
    subst this
    have := (h2 i).1 hi
    exact ⟨lt_of_lt_of_le this.1 (hd.view r hr).numLocalFacets, this.1, this.2⟩
  have hmem : ∀ r, r < P → ∀ f, f ∈ g r ↔ ∃ b i, b < (maps r).localSize ∧ (maps r).fctNo b = some i ∧
      (views r).facets[i]? = some f := by
    intro r hr f
    simp only [g, List.mem_map, BMap.localFctNos]
    constructor
    · rintro ⟨i, hi, rfl⟩
      obtain ⟨b, hb⟩ := List.mem_iff_getElem?.1 hi
      rw [List.getElem?_take] at hb
      split at hb
      · rename_i hlt
        have := hget r hr i (List.mem_of_getElem? hb)
        exact ⟨b, i, hlt, hb, by rw [List.getElem?_eq_getElem this.1, List.getD_eq_getElem _ _ this.1]⟩
      · cases hb
    · rintro ⟨b, i, hb, hbi, hf⟩
      refine ⟨i, List.mem_iff_getElem?.2 ⟨b, ?_⟩, ?_⟩
      · rw [List.getElem?_take_of_lt hb]; exact hbi
      · rw [List.getD_eq_getElem?_getD, hf]; rfl
  have hlen : ∀ r, r < P → (g r).length = (maps r).localSize := by
    intro r hr
    obtain ⟨m, h0, h1, h2, h3, h4, h5, h6, -⟩ := DGTopo.C31_boundary_map hd r hr bc (hsmall r hr)
    have : m = maps r := Option.some.inj (h0.symm.trans (hmaps r hr))
    subst this
    simp only [g, List.length_map, BMap.localFctNos, List.length_take]
    omega
  have hnod : ∀ r, r < P → (g r).Nodup := by
    intro r hr
    obtain ⟨m, h0, h1, -⟩ := DGTopo.C31_boundary_map hd r hr bc (hsmall r hr)
    have : m = maps r := Option.some.inj (h0.symm.trans (hmaps r hr))
    subst this
    refine List.Nodup.map_on ?_ (h1.sublist (List.take_sublist _ _))
    intro i hi j hj hij
    have hi' := (hget r hr i ((List.take_sublist _ _).subset hi)).1
    have hj' := (hget r hr j ((List.take_sublist _ _).subset hj)).1
    rw [List.getD_eq_getElem _ _ hi', List.getD_eq_getElem _ _ hj'] at hij
    exact (hd.view r hr).facetsOnce.getElem_inj_iff.1 hij
  have htag : ∀ r, r < P → ∀ f ∈ g r, (∃ e, InElems P elems e ∧ IsFacet e f) ∧ tag f = bc := by
    intro r hr f hf
    obtain ⟨b, i, hb, hbi, hfi⟩ := (hmem r hr f).1 hf
    obtain ⟨-, hl, hbc⟩ := hget r hr i (List.mem_of_getElem? hbi)
    obtain ⟨e, he, hef⟩ := ((hd.view r hr).localFacets i f hfi).1 hl
    refine ⟨⟨e, ⟨r, hr, he⟩, hef⟩, ?_⟩
    rw [(hd.view r hr).bc i f hfi] at hbc
    exact Option.some.inj hbc
  have hdis : ∀ r s, r < P → s < P → r ≠ s → ∀ f ∈ g r, f ∉ g s := by
    intro r s hr hs hrs f hf hf'
    obtain ⟨q, -, -, hq⟩ := DGTopo.C31_owned_once hd bc hsmall maps hmaps f (htag r hr f hf).1 (htag r hr f hf).2
    exact hrs ((hq r hr ((hmem r hr f).1 hf)).trans (hq s hs ((hmem s hs f).1 hf')).symm)
  have hp : all.Perm ((List.range P).flatMap g) := by
    rw [List.perm_ext_iff_of_nodup hall.1 (nodup_flatMap_range P g hnod hdis)]
    intro f
    rw [hall.2 f, List.mem_flatMap]
    constructor
    · rintro ⟨h1, h2⟩
      obtain ⟨r, hr, h, -⟩ := DGTopo.C31_owned_once hd bc hsmall maps hmaps f h1 h2
      exact ⟨r, List.mem_range.2 hr, (hmem r hr f).2 h⟩
    · rintro ⟨r, hr, h⟩; exact htag r (List.mem_range.1 hr) f h
  rw [hp.length_eq, length_flatMap_range, reduceSum_eq, ← sum_map_mul]
  congr 1
  refine List.map_congr_left fun r hr => ?_
  rw [hlen r (List.mem_range.1 hr)]; rfl

section Size
variable {K : Type} [Field K] [LinearOrder K]

/-- A fold of `max` is an upper bound of the start and the values, and one of them. -/
theorem foldl_max_spec {α : Type} (f : α → K) (l : List α) : ∀ (a : K),
    a ≤ l.foldl (fun h x => max h (f x)) a ∧ (∀ x ∈ l, f x ≤ l.foldl (fun h x => max h (f x)) a) ∧
    (l.foldl (fun h x => max h (f x)) a = a ∨ ∃ x ∈ l, l.foldl (fun h x => max h (f x)) a = f x) := by
  induction l with
  | nil => intro a; exact ⟨le_refl _, by simp, Or.inl rfl⟩
  | cons x l ih =>
    intro a
    obtain ⟨h1, h2, h3⟩ := ih (max a (f x))
    rw [List.foldl_cons]
    refine ⟨(le_max_left _ _).trans h1, ?_, ?_⟩
    · intro y hy
      rcases List.mem_cons.1 hy with rfl | hy
      · exact (le_max_right _ _).trans h1
      · exact h2 y hy
    · rcases h3 with h3 | ⟨y, hy, h3⟩
      · rcases max_choice a (f x) with h | h
        · exact Or.inl (h3.trans h)
        · exact Or.inr ⟨x, by simp, h3.trans h⟩
      · exact Or.inr ⟨y, List.mem_cons_of_mem _ hy, h3⟩

/-- The nested loops are one loop over all pairs of corners. -/
theorem localMeshSize_eq {X : Type} (pos : Nat → X) (dist : X → X → K) (v : View) :
    localMeshSize pos dist v =
      (v.elems.flatMap (fun e => e.flatMap (fun a => e.map (fun b => (a, b))))).foldl
        (fun h x => max h (dist (pos x.1) (pos x.2))) 0 := by
  unfold localMeshSize
  rw [List.foldl_flatMap]
  congr 1
  funext h e
  rw [List.foldl_flatMap]
  congr 1
  funext h a
  rw [List.foldl_map]

/-- C100 (mesh size): on a mesh with at least one element the reported mesh size is the largest distance of two
corners of an element of the mesh, however the mesh is distributed. -/
theorem C100_mesh_size [IsStrictOrderedRing K] {P D : Nat} {elems : Nat → List (List Nat)}
    {num fnum tag : List Nat → Nat} {views : Nat → View} (hd : IsDistributed P D elems num fnum tag views)
    {X : Type} (pos : Nat → X) (dist : X → X → K) (h0 : ∀ x y, 0 ≤ dist x y) (hself : ∀ x, dist x x = 0)
    (e0 : List Nat) (he0 : InElems P elems e0) :
    ∃ h, reduceMax ((List.range P).map (fun r => localMeshSize pos dist (views r))) = some h ∧
      IsMeshSize P elems pos dist h := by
  have hloc : ∀ r, r < P → 0 ≤ localMeshSize pos dist (views r) ∧
      (∀ e ∈ elems r, ∀ a ∈ e, ∀ b ∈ e, dist (pos a) (pos b) ≤ localMeshSize pos dist (views r)) ∧
      (localMeshSize pos dist (views r) = 0 ∨ ∃ e, InElems P elems e ∧ ∃ a ∈ e, ∃ b ∈ e,
        dist (pos a) (pos b) = localMeshSize pos dist (views r)) := by
    intro r hr
    have hv := hd.view r hr
    rw [localMeshSize_eq]
    obtain ⟨h1, h2, h3⟩ := foldl_max_spec (fun x : Nat × Nat => dist (pos x.1) (pos x.2))
      ((views r).elems.flatMap (fun e => e.flatMap (fun a => e.map (fun b => (a, b))))) 0
    refine ⟨h1, ?_, ?_⟩
    · intro e he a ha b hb
      refine h2 (a, b) ?_
      have : e ∈ (views r).elems := (hv.exactly e).2 ⟨⟨r, hr, he⟩, Or.inl he⟩
      simp only [List.mem_flatMap, List.mem_map]
      exact ⟨e, this, a, ha, b, hb, rfl⟩
    · rcases h3 with h3 | ⟨⟨a, b⟩, hx, h3⟩
      · exact Or.inl h3
      · simp only [List.mem_flatMap, List.mem_map, Prod.mk.injEq] at hx
        obtain ⟨e, he, a', ha, b', hb, rfl, rfl⟩ := hx
        exact Or.inr ⟨e, ((hv.exactly e).1 he).1, a', ha, b', hb, h3.symm⟩
  obtain ⟨r0, hr0, he0r⟩ := he0
  obtain ⟨Q, rfl⟩ : ∃ Q, P = Q + 1 := ⟨P - 1, by omega⟩
  obtain ⟨r', l, hl⟩ : ∃ r' l, List.range (Q + 1) = r' :: l := by
    cases h : List.range (Q + 1) with
    | nil => simp at h
    | cons a l => exact ⟨a, l, rfl⟩
  have hmem : ∀ r, r < Q + 1 ↔ r = r' ∨ r ∈ l := by
    intro r; rw [← List.mem_range, hl, List.mem_cons]
  rw [hl, List.map_cons]
  refine ⟨_, rfl, ?_⟩
  rw [List.foldl_map]
  obtain ⟨h1, h2, h3⟩ := foldl_max_spec (fun r => localMeshSize pos dist (views r)) l
    (localMeshSize pos dist (views r'))
  set h := l.foldl (fun h r => max h (localMeshSize pos dist (views r))) (localMeshSize pos dist (views r'))
    with hh
  have hub : ∀ r, r < Q + 1 → localMeshSize pos dist (views r) ≤ h := by
    intro r hr
    rcases (hmem r).1 hr with rfl | hr
    · exact h1
    · exact h2 r hr
  obtain ⟨r, hr, hrh⟩ : ∃ r, r < Q + 1 ∧ h = localMeshSize pos dist (views r) := by
    rcases h3 with h3 | ⟨x, hx, h3⟩
    · exact ⟨r', (hmem r').2 (Or.inl rfl), h3⟩
    · exact ⟨x, (hmem x).2 (Or.inr hx), h3⟩
  constructor
  · rintro e ⟨s, hs, he⟩ a ha b hb
    exact ((hloc s hs).2.1 e he a ha b hb).trans (hub s hs)
  · rcases (hloc r hr).2.2 with hz | ⟨e, he, a, ha, b, hb, hab⟩
    · have hlen := hd.mesh.size r0 hr0 e0 he0r
      obtain ⟨a, ha⟩ : ∃ a, a ∈ e0 := by
        cases e0 with
        | nil => simp at hlen
        | cons a _ => exact ⟨a, by simp⟩
      exact ⟨e0, ⟨r0, hr0, he0r⟩, a, ha, a, ha, by rw [hself, hrh, hz]⟩
    · exact ⟨e, he, a, ha, b, hb, by rw [hab, hrh]⟩

end Size

/-! ## The run -/

section Run
variable {K : Type} [Field K] [LinearOrder K]

theorem seasCalls_append (a b : List (Ev K)) : seasCalls (a ++ b) = seasCalls a ++ seasCalls b := by
  induction a with
  | nil => rfl
  | cons x a ih => cases x <;> simp [seasCalls, ih]

theorem seasLines_append (a b : List (Ev K)) : seasLines (a ++ b) = seasLines a ++ seasLines b := by
  induction a with
  | nil => rfl
  | cons x a ih => cases x <;> simp [seasLines, ih]

theorem seasCalls_map (l : List (Call K)) : seasCalls (l.map Ev.call) = l := by
  induction l with
  | nil => rfl
  | cons x a ih => simp [seasCalls, ih]

theorem seasLines_map (l : List (Call K)) : seasLines (l.map Ev.call) = [] := by
  induction l with
  | nil => rfl
  | cons x a ih => simp [seasLines, ih]

theorem seasCalls_onRoot (r : Nat) (l : List Line) : seasCalls (onRoot (K := K) r l) = [] := by
  unfold onRoot
  split
  · induction l with
    | nil => rfl
    | cons x a ih => simp [seasCalls, ih]
  · rfl

theorem seasLines_onRoot (r : Nat) (l : List Line) :
    seasLines (onRoot (K := K) r l) = if r = 0 then l else [] := by
  unfold onRoot
  split
  · induction l with
    | nil => rfl
    | cons x a ih => simp [seasLines, ih]
  · rfl

/-- C100 (when a run fails to start): exactly for an unknown problem type, or if the output sections are refused
(`C53_writers`). -/
theorem C100_starts (big : K) (hdf5 : Bool) (cfg : Cfg K) (sc : Scn) (rank : Nat) :
    solveSEASProblem big hdf5 cfg sc rank = none ↔
      cfg.problem = none ∨ (cfg.mode ≠ .unknown ∧ Main.addWriters hdf5 cfg.out = none) := by
  unfold solveSEASProblem
  cases hp : cfg.problem with
  | none => simp
  | some p =>
    cases hm : cfg.mode <;> cases hw : Main.addWriters hdf5 cfg.out <;> simp [solveSeas, hw]

/-- C100 (quasi-dynamic run): the operations of every rank, in order: the operator of the configured problem with
the solver options, boundary data if the scenario has them, warm-up, the integrator with one state vector, the
monitor with the configured writers, static output before the first step, the reductions for the report, the
solution up to the final time, and - if there are references - the error of the displacement of the final time,
after a new solve for it, and of the fault state. -/
theorem C100_qd_calls (big : K) (hdf5 : Bool) (cfg : Cfg K) (sc : Scn) (rank : Nat) (p : Problem)
    (hp : cfg.problem = some p) (hm : cfg.mode = .qd) (ws : List Main.Writer)
    (hw : Main.addWriters hdf5 cfg.out = some ws) :
    ∃ evs, solveSEASProblem big hdf5 cfg sc rank = some evs ∧ seasCalls evs =
      [.context p, .operatorQD cfg.matrixFree cfg.coarse cfg.strategy] ++
      (if sc.boundary then [.setBoundary] else []) ++
      [.warmup, .timeSolver 1, .monitor .qd ws, .writeStatic, .setMonitor,
        .reduceDofsDomain, .reduceDofsFault, .reduceSize, .solve cfg.finalTime] ++
      (if sc.domainSol then [.updateDisplacement cfg.finalTime, .l2Domain cfg.finalTime 0] else []) ++
      (if sc.faultSol then [.l2Fault cfg.finalTime 0] else []) := by
  simp only [solveSEASProblem, hp, hm, solveSeas, hw]
  refine ⟨_, rfl, ?_⟩
  simp only [seasCalls_append, seasCalls_map, seasCalls_onRoot, seasCalls, make, setup, numStates, monOf,
    displacement, faultVec, hm]
  cases sc.boundary <;> cases sc.domainSol <;> cases sc.faultSol <;> simp [seasCalls]

/-- C100 (run with Green's functions): as a quasi-dynamic run, with the operator for Green's functions, which
saves them under the prefix and with the period of the checkpoint section, or not at all without it. -/
theorem C100_green_calls (big : K) (hdf5 : Bool) (cfg : Cfg K) (sc : Scn) (rank : Nat) (p : Problem)
    (hp : cfg.problem = some p) (hm : cfg.mode = .green) (ws : List Main.Writer)
    (hw : Main.addWriters hdf5 cfg.out = some ws) :
    ∃ evs minutes, solveSEASProblem big hdf5 cfg sc rank = some evs ∧
      (∀ q m, cfg.gf = some (q, m) → minutes = m) ∧ seasCalls evs =
      [.context p, .operatorGreen (cfg.gf.map Prod.fst) minutes cfg.matrixFree cfg.coarse cfg.strategy] ++
      (if sc.boundary then [.setBoundary] else []) ++
      [.warmup, .timeSolver 1, .monitor .qd ws, .writeStatic, .setMonitor,
        .reduceDofsDomain, .reduceDofsFault, .reduceSize, .solve cfg.finalTime] ++
      (if sc.domainSol then [.updateDisplacement cfg.finalTime, .l2Domain cfg.finalTime 0] else []) ++
      (if sc.faultSol then [.l2Fault cfg.finalTime 0] else []) := by
  simp only [solveSEASProblem, hp, hm, solveSeas, hw]
  refine ⟨_, (cfg.gf.map Prod.snd).getD big, rfl, fun q m h => by simp [h], ?_⟩
  simp only [seasCalls_append, seasCalls_map, seasCalls_onRoot, seasCalls, make, setup, numStates, monOf,
    displacement, faultVec, hm]
  cases cfg.gf <;> cases sc.boundary <;> cases sc.domainSol <;> cases sc.faultSol <;> simp [seasCalls]

/-- C100 (fully dynamic run): the operations of every rank, in order: the operator, boundary data and initial
fields of the scenario, the integrator with three state vectors, the limit of the step - the stable step times the
configured factor - before the first step, the monitor with the configured writers, static output, reductions, the
solution up to the final time, the errors of the displacement (vector 1) and the fault state (vector 2) of the
final time, and the profile. -/
theorem C100_fd_calls (big : K) (hdf5 : Bool) (cfg : Cfg K) (sc : Scn) (rank : Nat) (p : Problem)
    (hp : cfg.problem = some p) (hm : cfg.mode = .fd) (ws : List Main.Writer)
    (hw : Main.addWriters hdf5 cfg.out = some ws) :
    ∃ evs, solveSEASProblem big hdf5 cfg sc rank = some evs ∧ seasCalls evs =
      [.context p, .operatorFD] ++
      (if sc.boundary then [.setBoundary] else []) ++
      (if sc.iniDisp then [.setInitialDisplacement] else []) ++
      (if sc.iniVel then [.setInitialVelocity] else []) ++
      [.timeSolver 3, .cflStep, .stepLimit cfg.cfl, .monitor .fd ws, .writeStatic, .setMonitor,
        .reduceDofsDomain, .reduceDofsFault, .reduceSize, .solve cfg.finalTime] ++
      (if sc.domainSol then [.l2Domain cfg.finalTime 1] else []) ++
      (if sc.faultSol then [.l2Fault cfg.finalTime 2] else []) ++ [.profile] := by
  simp only [solveSEASProblem, hp, hm, solveSeas, hw]
  refine ⟨_, rfl, ?_⟩
  simp only [seasCalls_append, seasCalls_map, seasCalls_onRoot, seasCalls, make, setup, numStates, monOf,
    displacement, faultVec, hm]
  cases sc.boundary <;> cases sc.iniDisp <;> cases sc.iniVel <;> cases sc.domainSol <;> cases sc.faultSol <;>
    simp [seasCalls]

/-- C100 (ranks agree): all ranks start or fail together and take part in the same operations in the same order,
so no rank waits for another one for ever. -/
theorem C100_collective (big : K) (hdf5 : Bool) (cfg : Cfg K) (sc : Scn) (r r' : Nat) :
    (solveSEASProblem big hdf5 cfg sc r).map seasCalls = (solveSEASProblem big hdf5 cfg sc r').map seasCalls := by
  unfold solveSEASProblem
  cases cfg.problem with
  | none => rfl
  | some p =>
    cases hm : cfg.mode <;> cases hw : Main.addWriters hdf5 cfg.out <;>
      simp [solveSeas, hw, seasCalls, seasCalls_append, seasCalls_onRoot]

/-- C100 (report): only rank 0 prints; the report has the sizes before the run and the summary after it, with the
stable time step exactly in fully dynamic runs and each error exactly if the scenario has its reference. -/
theorem C100_reports (big : K) (hdf5 : Bool) (cfg : Cfg K) (sc : Scn) (rank : Nat) (evs : List (Ev K))
    (h : solveSEASProblem big hdf5 cfg sc rank = some evs) (hm : cfg.mode ≠ .unknown) :
    seasLines evs = if rank = 0 then
      [.dofsDomain, .dofsFault, .meshSize] ++ (if cfg.mode = .fd then [.cflTimeStep] else []) ++
      [.summary, .dateTime, .version, .solveTime, .timeSteps, .rejections, .minStep, .maxStep,
      .sDofsDomain, .sDofsFault, .sMeshSize] ++ (if cfg.mode = .fd then [.dtCfl] else []) ++
      (if sc.domainSol then [.l2Domain] else []) ++ (if sc.faultSol then [.l2Fault] else []) ++ [.endSummary]
      else [] := by
  unfold solveSEASProblem at h
  cases hp : cfg.problem with
  | none => rw [hp] at h; cases h
  | some p =>
    rw [hp] at h
    have h' : (solveSeas big hdf5 cfg sc rank).map (.call (.context p) :: ·) = some evs := by
      cases hm' : cfg.mode <;> simp only [hm'] at h hm
      · exact h
      · exact h
      · exact h
      · exact absurd rfl hm
    cases hw : Main.addWriters hdf5 cfg.out with
    | none => simp [solveSeas, hw] at h'
    | some ws =>
      simp only [solveSeas, hw] at h'
      obtain rfl := Option.some.inj h'
      by_cases hr : rank = 0 <;> by_cases hfd : cfg.mode = .fd <;> cases sc.domainSol <;> cases sc.faultSol <;>
        simp [seasLines, seasLines_append, seasLines_map, seasLines_onRoot, hr, hfd]

/-- C100 (finding): an unknown mode would be ignored silently: nothing is solved and no exception is raised. -/
theorem C100_unknown_mode (big : K) (hdf5 : Bool) (cfg : Cfg K) (sc : Scn) (rank : Nat) (p : Problem)
    (hp : cfg.problem = some p) (hm : cfg.mode = .unknown) :
    solveSEASProblem big hdf5 cfg sc rank = some [.call (.context p)] := by
  simp [solveSEASProblem, hp, hm]

end Run

/-- A fully dynamic run with all kinds of output. -/
example : ∃ ws, Main.addWriters true ⟨some "f".toList, some ("s".toList, .csv), some "d".toList,
      some ("p".toList, .hdf5, 2), some ("q".toList, .csv, 1), some "m".toList⟩ = some ws ∧
    staticOutput .fd true (fun _ => [4]) ws = [.probes "p".toList, .vtu "f-static".toList (.fault none),
      .vtu "d-static".toList (.domain none)] ∧ ws.length = 6 := by
  refine ⟨_, rfl, ?_, rfl⟩
  decide +kernel

/-- The strip of five triangles on three ranks meets the hypotheses of the theorems on reported numbers. -/
example : ∃ num fnum tag views, IsDistributed 3 2 Ghosts.exElems num fnum tag views ∧
    ListsElements 3 Ghosts.exElems Ghosts.exAll ∧
    (∀ r, r < 3 → ∃ m, boundaryMap (views r) SeasOp.bcFault = some m) := by
  obtain ⟨num, fnum, views, ranks, plansU, plansS, h⟩ := SeasOp.example_setup
  refine ⟨num, fnum, _, views, h.mesh, ⟨by decide, fun e => ⟨?_, ?_⟩⟩, fun r hr => ⟨_, h.map r hr⟩⟩
  · intro he
    have : ∀ a ∈ Ghosts.exAll, ∃ s, s < 3 ∧ a ∈ Ghosts.exElems s := by decide
    exact this e he
  · rintro ⟨s, hs, he⟩
    have : ∀ s, s < 3 → ∀ a ∈ Ghosts.exElems s, a ∈ Ghosts.exAll := by decide
    exact this s hs e he

end Tandem.SeasRun
