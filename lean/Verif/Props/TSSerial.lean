/-
C69: a checkpoint holds the whole state of the time integrator, and loading it restores that state.
-/
import Verif.Spec.TSSerial
import Mathlib.Data.List.Forall2
import Mathlib.Tactic.Common
import Mathlib.Logic.Function.Iterate

namespace Tandem.TSSerial
open Tandem.Spec

variable {R γ : Type}

theorem plainLoad_vec (o xs : List R) (r : List (Tok R)) (h : xs.length = o.length) :
    plainLoad o (.vec xs :: r) = some (xs, r) := by simp [plainLoad, h]

theorem subsLoad_view (os xs : List (List R)) (r : List (Tok R))
    (h : xs.map List.length = os.map List.length) :
    subsLoad os (xs.map .vec ++ r) = some (xs, r) := by
  induction os generalizing xs with
  | nil => simp at h; subst h; rfl
  | cons o os ih =>
    cases xs with
    | nil => simp at h
    | cons x xs =>
      simp only [List.map_cons, List.cons.injEq] at h
      rw [List.map_cons, List.cons_append, subsLoad, plainLoad_vec _ _ _ h.1]
      simp only [ih xs h.2]

/-- A stored vector is read back into a vector of the same layout. -/
theorem vecLoad_view (o v : PVec R) (r : List (Tok R)) (hs : Storable v) (ho : Storable o)
    (h : SameLayout v o) : ∃ w, vecLoad o (vecView v ++ r) = some (w, r) ∧ blocks w = blocks v ∧
      SameLayout w o ∧ Storable w := by
  cases o with
  | plain xs =>
    cases v with
    | plain ys =>
      refine ⟨.plain ys, ?_, rfl, h, trivial⟩
      have hl : ys.length = xs.length := by simpa [SameLayout, blocks] using h.2
      simp [vecLoad, vecView, plainLoad_vec _ _ _ hl]
    | nest u ys => exact absurd h.1 (by simp)
  | nest u xs =>
    cases v with
    | plain ys => exact absurd h.1 (by simp)
    | nest u' ys =>
      have hu : u = true := ho
      have hu' : u' = true := hs
      subst hu; subst hu'
      refine ⟨.nest true ys, ?_, rfl, h, rfl⟩
      simp only [vecLoad, vecView]
      rw [subsLoad_view xs ys r h.2]

theorem upgrade_storable (v : PVec R) : Storable v.upgrade := by cases v <;> trivial
theorem upgrade_blocks (v : PVec R) : blocks v.upgrade = blocks v := by cases v <;> rfl
theorem upgrade_layout (v w : PVec R) (h : SameLayout v w) : SameLayout v.upgrade w.upgrade := by
  cases v <;> cases w <;> exact h

theorem stagesLoad_view (os vs : List (PVec R)) (r : List (Tok R)) (h : List.Forall₂ SameLayout vs os) :
    ∃ ws, stagesLoad os (vs.flatMap (fun v => vecView v.upgrade) ++ r) = some (ws, r) ∧
      ws.map blocks = vs.map blocks := by
  induction h with
  | nil => exact ⟨[], rfl, rfl⟩
  | @cons v o vs os hvo _ ih =>
    obtain ⟨w, hw, hb, -⟩ := vecLoad_view o.upgrade v.upgrade (vs.flatMap (fun v => vecView v.upgrade) ++ r)
      (upgrade_storable v) (upgrade_storable o) (upgrade_layout v o hvo)
    obtain ⟨ws, hws, hbs⟩ := ih
    refine ⟨w :: ws, ?_, ?_⟩
    · rw [List.flatMap_cons, List.append_assoc, stagesLoad, hw]
      simp only [hws]
    · simp [hb, hbs, upgrade_blocks]

theorem members_view (a b : Adapt R) (r : List (Tok R)) (h : b.type = a.type) :
    membersLoad b (membersView a ++ r) = some (a, r) := by
  cases a
  cases b
  subst h
  rfl

/-- The scheme of the restarted stepper loads the adaptivity object exactly once. -/
theorem adaptLoads_once (e : Env R γ) (t : String) (a : Option (Adapt R)) (n : String) (r : List (Tok R))
    (h : a.isSome ∨ e.implLoads t = true) :
    ∃ b, adaptLoads e t a (.str n :: r) = some (some b, r) ∧ b.type = n := by
  unfold adaptLoads adaptLoadIf
  cases hi : e.implLoads t with
  | true => exact ⟨_, rfl, rfl⟩
  | false =>
    have ha : a.isSome := by rcases h with h | h; exacts [h, by rw [hi] at h; exact absurd h (by simp)]
    cases a with
    | none => simp at ha
    | some a => exact ⟨_, rfl, rfl⟩

/-- `ts.bin` is read back. -/
theorem tsLoad_view (e e' : Env R γ) (s t : TS R γ) (r : List (Tok R)) (ht : t.typeName = s.typeName)
    (hs : Storable s.sol) (hts : Storable t.sol) (hl : SameLayout s.sol t.sol)
    (ha : t.adapt.isSome ∨ e'.implLoads s.typeName = true) :
    ∃ w r', tsLoad e' t (tsView e s ++ r) = some ({ t with
      steps := s.steps, ptime := s.ptime, timeStep := s.timeStep, ptimePrev := s.ptimePrev,
      ptimePrevRollback := s.ptimePrevRollback, solvetime := s.solvetime, adapt := some (adaptOf e s),
      sol := w }, r') ∧ blocks w = blocks s.sol ∧ SameLayout w t.sol ∧ Storable w := by
  obtain ⟨b, hb, hbt⟩ := adaptLoads_once e' s.typeName t.adapt (adaptOf e s).type
    (.dm :: (vecView s.sol ++ (.dmts :: (membersView (adaptOf e s) ++ (s.snes ++ r))))) ha
  obtain ⟨w, hw, hwb, hwl, hwst⟩ := vecLoad_view t.sol s.sol
    (.dmts :: (membersView (adaptOf e s) ++ (s.snes ++ r))) hs hts hl
  refine ⟨w, s.snes ++ r, ?_, hwb, hwl, hwst⟩
  have hset : ∀ u : TS R γ, u.typeName = s.typeName → setType s.typeName u = u := by
    intro u hu; simp [setType, hu]
  have e1 : tsView e s ++ r = .int tsClassId :: .str s.typeName :: .int s.steps :: .real s.ptime ::
      .real s.timeStep :: .real s.ptimePrev :: .real s.ptimePrevRollback :: .real s.solvetime ::
      .str (adaptOf e s).type :: .dm :: (vecView s.sol ++ (.dmts :: (membersView (adaptOf e s) ++ (s.snes ++ r)))) := by
    simp [tsView]
  rw [e1]
  unfold tsLoad
  simp only [rdInt, rdStr, rdReal, Option.bind_eq_bind, Option.bind_some, ne_eq, not_true_eq_false, if_false]
  rw [hset _ (by exact ht)]
  simp only [Option.pure_def, Option.bind_some, hb, rdDM, hw, rdDMTS, Option.getD_some,
    members_view (adaptOf e s) b _ hbt]

/-- C69: a checkpoint written by any run with any scheme and loaded into a time stepper of the same scheme and
the same layout restores the state; everything that is not part of the state stays as configured. -/
theorem C69_roundtrip (e e' : Env R γ) (s t : TS R γ) (ht : t.typeName = s.typeName)
    (hs : Storable s.sol) (hts : Storable t.sol) (hl : SameLayout s.sol t.sol)
    (ha : t.adapt.isSome ∨ e'.implLoads s.typeName = true)
    (hst : s.typeName = "rk" → ∃ vs os, s.stages = some vs ∧ t.stages = some os ∧ List.Forall₂ SameLayout vs os) :
    ∃ fs r, write e s = some fs ∧ load e' t fs = some r ∧ SameState s r ∧ r.cfg = t.cfg := by
  obtain ⟨w, r', hw, hwb, hwl, hwst⟩ := tsLoad_view e e' s t [] ht hs hts hl ha
  rw [List.append_nil] at hw
  have hlw : SameLayout s.sol w := by
    refine ⟨?_, by rw [hwb]⟩
    have := hl.1; have := hwl.1
    cases hsol : s.sol <;> cases htsol : t.sol <;> cases hwsol : w <;> simp_all
  obtain ⟨v, hv, hvb, -⟩ := vecLoad_view w s.sol [] hs hwst hlw
  rw [List.append_nil] at hv
  have had : ∀ a, s.adapt = some a → some (adaptOf e s) = some a := by
    intro a h; simp [adaptOf, h]
  by_cases hrk : s.typeName = "rk"
  · obtain ⟨vs, os, h1, h2, h3⟩ := hst hrk
    obtain ⟨ws, hws, hbs⟩ := stagesLoad_view os vs [] h3
    rw [List.append_nil] at hws
    refine ⟨⟨tsView e s, [.int tsClassId, .str s.typeName] ++ vs.flatMap (fun v => vecView v.upgrade), vecView s.sol⟩,
      { t with
        steps := s.steps, ptime := s.ptime, timeStep := s.timeStep, ptimePrev := s.ptimePrev,
        ptimePrevRollback := s.ptimePrevRollback, solvetime := s.solvetime, adapt := some (adaptOf e s), sol := v, stages := some ws }, ?_, ?_, ?_⟩
    · simp [write, implView, hrk, h1]
    · unfold load
      simp only [hw, Option.bind_eq_bind, Option.bind_some]
      unfold implLoad
      simp only [List.cons_append, List.nil_append, rdInt, rdStr, Option.bind_eq_bind, Option.bind_some, ne_eq,
        not_true_eq_false, if_false, Option.pure_def]
      simp only [ht, hrk, if_true, h2, Option.bind_some, hws, hv]
    · refine ⟨⟨ht, rfl, rfl, rfl, rfl, rfl, rfl, had, hvb, fun _ => ?_⟩, rfl⟩
      simp [h1, hbs]
  · refine ⟨⟨tsView e s, [.int tsClassId, .str s.typeName], vecView s.sol⟩,
      { t with
        steps := s.steps, ptime := s.ptime, timeStep := s.timeStep, ptimePrev := s.ptimePrev,
        ptimePrevRollback := s.ptimePrevRollback, solvetime := s.solvetime, adapt := some (adaptOf e s), sol := v }, ?_, ?_, ?_⟩
    · simp [write, implView, hrk]
    · unfold load
      simp only [hw, Option.bind_eq_bind, Option.bind_some]
      unfold implLoad
      simp only [rdInt, rdStr, Option.bind_eq_bind, Option.bind_some, ne_eq,
        not_true_eq_false, if_false, Option.pure_def]
      simp only [ht, hrk, if_false, Option.bind_some, hv]
    · exact ⟨⟨ht, rfl, rfl, rfl, rfl, rfl, rfl, had, hvb, fun h => absurd h hrk⟩, rfl⟩

/-- Reading blocks that are followed by the `DMTS` entry: as many blocks as stored, of the same sizes. -/
theorem subsLoad_exact (os xs : List (List R)) (r : List (Tok R)) (ys : List (List R)) (r' : List (Tok R))
    (h : subsLoad os (xs.map .vec ++ .dmts :: r) = some (ys, r')) (hd : ∃ q, r' = .dmts :: q) :
    xs.map List.length = os.map List.length := by
  induction os generalizing xs ys with
  | nil =>
    simp only [subsLoad, Option.some.injEq, Prod.mk.injEq] at h
    obtain ⟨q, hq⟩ := hd
    cases xs with
    | nil => rfl
    | cons x xs => rw [hq, List.map_cons, List.cons_append] at h; exact absurd h.2 (by simp)
  | cons o os ih =>
    cases xs with
    | nil => simp [subsLoad, plainLoad] at h
    | cons x xs =>
      rw [List.map_cons, List.cons_append, subsLoad] at h
      by_cases hl : x.length = o.length
      · rw [plainLoad_vec _ _ _ hl] at h
        simp only at h
        cases hs : subsLoad os (xs.map .vec ++ .dmts :: r) with
        | none => rw [hs] at h; simp at h
        | some p =>
          rw [hs] at h
          simp only [Option.some.injEq, Prod.mk.injEq] at h
          have := ih xs p.1 (by rw [hs, ← h.2])
          simp [this, hl]
      · simp [plainLoad, hl] at h

/-- Reading a solution vector that is followed by the `DMTS` entry. -/
theorem vecLoad_exact (o v w : PVec R) (r r' : List (Tok R)) (hs : Storable v)
    (h : vecLoad o (vecView v ++ .dmts :: r) = some (w, r')) (hd : ∃ q, r' = .dmts :: q) :
    (blocks v).map List.length = (blocks o).map List.length := by
  have hv : vecView v = (blocks v).map .vec := by
    cases v with
    | plain xs => rfl
    | nest u subs => have : u = true := hs; subst this; rfl
  rw [hv] at h
  cases o with
  | plain xs =>
    rw [vecLoad] at h
    cases hp : plainLoad xs ((blocks v).map .vec ++ .dmts :: r) with
    | none => rw [hp] at h; simp at h
    | some p =>
      rw [hp] at h
      simp only [Option.some.injEq, Prod.mk.injEq] at h
      have := subsLoad_exact [xs] (blocks v) r [p.1] r' (by simp [subsLoad, hp, ← h.2]) hd
      simpa [blocks] using this
  | nest u xs =>
    cases u with
    | false => simp [vecLoad] at h
    | true =>
      rw [vecLoad] at h
      cases hp : subsLoad xs ((blocks v).map .vec ++ .dmts :: r) with
      | none => rw [hp] at h; simp at h
      | some p =>
        rw [hp] at h
        simp only [Option.some.injEq, Prod.mk.injEq] at h
        exact subsLoad_exact xs (blocks v) r p.1 r' (by rw [hp, ← h.2]) hd

theorem adaptLoads_rest (e : Env R γ) (t : String) (a : Option (Adapt R)) (n : String) (r r' : List (Tok R))
    (x : Option (Adapt R)) (h : adaptLoads e t a (.str n :: .dm :: r) = some (x, r')) :
    r' = .dm :: r ∧ (a.isSome ∨ e.implLoads t = true) := by
  unfold adaptLoads adaptLoadIf at h
  cases hi : e.implLoads t <;> rw [hi] at h <;> cases a <;>
    simp [adaptLoad, rdStr] at h <;> simp [h.2]

theorem setType_sol (t : String) (ts : TS R γ) : (setType t ts).sol = ts.sol ∧ (setType t ts).adapt = ts.adapt := by
  unfold setType; split <;> exact ⟨rfl, rfl⟩

/-- What must hold if `ts.bin` could be read. -/
theorem tsLoad_checked (e e' : Env R γ) (s t : TS R γ) (r : TS R γ × List (Tok R)) (hs : Storable s.sol)
    (h : tsLoad e' t (tsView e s) = some r) :
    (blocks s.sol).map List.length = (blocks t.sol).map List.length ∧
      (t.adapt.isSome ∨ e'.implLoads s.typeName = true) := by
  have e1 : tsView e s = .int tsClassId :: .str s.typeName :: .int s.steps :: .real s.ptime ::
      .real s.timeStep :: .real s.ptimePrev :: .real s.ptimePrevRollback :: .real s.solvetime ::
      .str (adaptOf e s).type :: .dm :: (vecView s.sol ++ (.dmts :: (membersView (adaptOf e s) ++ s.snes))) := by
    simp [tsView]
  rw [e1] at h
  unfold tsLoad at h
  simp only [rdInt, rdStr, rdReal, Option.bind_eq_bind, Option.bind_some, ne_eq, not_true_eq_false, if_false,
    Option.pure_def, Option.bind_eq_some_iff, (setType_sol _ _).1, (setType_sol _ _).2] at h
  obtain ⟨⟨a, f1⟩, h1, ⟨u, f2⟩, h2, ⟨w, f3⟩, h3, ⟨u', f4⟩, h4, -⟩ := h
  obtain ⟨rfl, h5⟩ := adaptLoads_rest _ _ _ _ _ _ _ h1
  simp only [rdDM, Option.some.injEq, Prod.mk.injEq] at h2
  obtain ⟨-, rfl⟩ := h2
  refine ⟨vecLoad_exact t.sol s.sol w _ _ hs h3 ?_, h5⟩
  cases f3 with
  | nil => simp [rdDMTS] at h4
  | cons k f3 => cases k <;> simp [rdDMTS] at h4 <;> exact ⟨_, rfl⟩

/-- C69: a checkpoint whose solution has another number of blocks or blocks of other sizes is rejected, whatever
the scheme. -/
theorem C69_layout_checked (e e' : Env R γ) (s t r : TS R γ) (fs : Files R) (hs : Storable s.sol)
    (hw : write e s = some fs) (h : load e' t fs = some r) :
    (blocks s.sol).map List.length = (blocks t.sol).map List.length := by
  unfold write at hw
  simp only [Option.bind_eq_bind, Option.bind_eq_some_iff, Option.some.injEq] at hw
  obtain ⟨impl, -, rfl⟩ := hw
  unfold load at h
  simp only [Option.bind_eq_bind, Option.bind_eq_some_iff] at h
  obtain ⟨p, hp, -⟩ := h
  exact (tsLoad_checked e e' s t p hs hp).1

/-- C69: files that do not begin with the number PETSc uses to mark time steppers are rejected. -/
theorem C69_class_checked (e : Env R γ) (t r : TS R γ) (fs : Files R) (h : load e t fs = some r) :
    fs.ts.head? = some (.int tsClassId) ∧ fs.impl.head? = some (.int tsClassId) := by
  have hrd : ∀ (f : List (Tok R)) (p : Int × List (Tok R)), rdInt f = some p → p.1 = tsClassId → f.head? = some (.int tsClassId) := by
    intro f p hp he
    cases f with
    | nil => cases hp
    | cons a f =>
      cases a with
      | int n =>
        simp only [rdInt, Option.some.injEq] at hp
        rw [← hp] at he; simp only at he; rw [he]; rfl
      | _ => cases hp
  unfold load at h
  simp only [Option.bind_eq_bind, Option.bind_eq_some_iff] at h
  obtain ⟨p, hp, q, hq, -⟩ := h
  constructor
  · unfold tsLoad at hp
    simp only [Option.bind_eq_bind, Option.bind_eq_some_iff] at hp
    obtain ⟨c, hc, hp⟩ := hp
    refine hrd _ _ hc ?_
    by_contra hne
    rw [if_pos hne] at hp
    simp at hp
  · unfold implLoad at hq
    simp only [Option.bind_eq_bind, Option.bind_eq_some_iff] at hq
    obtain ⟨c, hc, hq⟩ := hq
    refine hrd _ _ hc ?_
    by_contra hne
    rw [if_pos hne] at hq
    simp at hq

/-- C69, negative: for a scheme without its own load function and a stepper without step size controller the
controller is read twice, and the restart fails. -/
theorem C69_controller_read_twice (e e' : Env R γ) (s t : TS R γ) (fs : Files R) (hs : Storable s.sol)
    (hw : write e s = some fs) (ha : t.adapt = none) (hi : e'.implLoads s.typeName = false) :
    load e' t fs = none := by
  unfold write at hw
  simp only [Option.bind_eq_bind, Option.bind_eq_some_iff, Option.some.injEq] at hw
  obtain ⟨impl, -, rfl⟩ := hw
  cases hl : load e' t ⟨tsView e s, impl, vecView s.sol⟩ with
  | none => rfl
  | some r =>
    unfold load at hl
    simp only [Option.bind_eq_bind, Option.bind_eq_some_iff] at hl
    obtain ⟨p, hp, -⟩ := hl
    have := (tsLoad_checked e e' s t p hs hp).2
    simp [ha, hi] at this

/-- C69: the restarted run continues like the saved one. `step` is a time step of the scheme, which depends on
nothing but the state of the stepper and its configuration (in particular not on whether the operations of nested
vectors were replaced); the restarted stepper is configured like the saved one, and applying the command line options
again changes nothing. Then after any number of steps both are in the same state. -/
theorem C69_resume (e e' : Env R γ) (s t : TS R γ) (ht : t.typeName = s.typeName)
    (hs : Storable s.sol) (hts : Storable t.sol) (hl : SameLayout s.sol t.sol)
    (ha : t.adapt.isSome ∨ e'.implLoads s.typeName = true)
    (hst : s.typeName = "rk" → ∃ vs os, s.stages = some vs ∧ t.stages = some os ∧ List.Forall₂ SameLayout vs os)
    (hcfg : t.cfg = s.cfg) (hopt : ∀ x, e'.fromOptions x = x)
    (step : TS R γ → TS R γ)
    (hstep : ∀ x y : TS R γ, SameState x y → x.cfg = y.cfg →
      SameState (step x) (step y) ∧ (step x).cfg = (step y).cfg) :
    ∃ fs r, write e s = some fs ∧ restart e' t fs = some r ∧
      ∀ n : Nat, SameState (step^[n] s) (step^[n] r) := by
  obtain ⟨fs, r, h1, h2, h3, h4⟩ := C69_roundtrip e e' s t ht hs hts hl ha hst
  refine ⟨fs, r, h1, by simp [restart, h2, hopt], ?_⟩
  have key : ∀ n : Nat, SameState (step^[n] s) (step^[n] r) ∧ (step^[n] s).cfg = (step^[n] r).cfg := by
    intro n
    induction n with
    | zero => exact ⟨h3, by simp [h4, hcfg]⟩
    | succ n ih =>
      rw [Function.iterate_succ_apply', Function.iterate_succ_apply']
      exact hstep _ _ ih.1 ih.2
  exact fun n => (key n).1

/-! Concrete steppers with whole numbers as floating point numbers. -/

/-- A step size controller. -/
def exAdapt : Adapt Int := ⟨"basic", false, 9, 5, 1, 10, 0, 100, -1, true, 25, 1, 2, 0, 0⟩

/-- What PETSc brings along in the example: only Runge-Kutta schemes have a load function; an option sets the time
step to 77. -/
def exEnv (opt : Bool) : Env Int Unit :=
  ⟨exAdapt, fun t => t == "rk", fun ts => if opt then { ts with timeStep := 77 } else ts⟩

/-- A stepper in the middle of a run: two state vectors and two stages. -/
def exSaved : TS Int Unit :=
  ⟨"rk", 12, 340, 20, 320, 300, 340, some exAdapt, .nest true [[1, 2], [3]],
    some [.nest false [[4, 5], [6]], .nest false [[7, 8], [9]]], [], ()⟩

/-- A freshly set up stepper of the same layout. -/
def exFresh (stages : List (PVec Int)) : TS Int Unit :=
  ⟨"rk", 0, 0, 1, 0, 0, 0, some exAdapt, .nest true [[0, 0], [0]], some stages, [], ()⟩

/-- The hypotheses of the round trip hold for the example. -/
example : ∃ fs r, write (exEnv false) exSaved = some fs ∧
    load (exEnv false) (exFresh [.nest false [[0, 0], [0]], .nest false [[0, 0], [0]]]) fs = some r ∧
    SameState exSaved r ∧ r.cfg = () :=
  C69_roundtrip (exEnv false) (exEnv false) exSaved
    (exFresh [.nest false [[0, 0], [0]], .nest false [[0, 0], [0]]]) rfl rfl rfl ⟨trivial, rfl⟩ (Or.inl rfl)
    (fun _ => ⟨_, _, rfl, rfl, .cons ⟨trivial, rfl⟩ (.cons ⟨trivial, rfl⟩ .nil)⟩)

/-- C69, negative: the number of stages is not compared: a checkpoint of a scheme with two stages is loaded
into one with a single stage without an error, and the right-hand side of the first stage takes the place of the
last one. -/
theorem C69_tableau_not_checked :
    ((write (exEnv false) exSaved).bind (load (exEnv false) (exFresh [.nest false [[0, 0], [0]]]))).map
      (fun r => r.stages.map (·.map blocks)) = some (some [[[4, 5], [6]]]) := by decide +kernel

/-- C69, negative: options that set an initial value are applied again after loading and override the
checkpoint: the saved time step is 20, the restarted run has the 77 of the option. -/
theorem C69_options_override :
    ((write (exEnv true) exSaved).bind
      (restart (exEnv true) (exFresh [.nest false [[0, 0], [0]], .nest false [[0, 0], [0]]]))).map
      (fun r => (r.ptime, r.timeStep)) = some (340, 77) := by decide +kernel

/-- C69: without replacing the operations of nested vectors nothing would be stored, and loading would fail. -/
theorem C69_nested_needs_upgrade (subs : List (List R)) (o : List (List R)) (f : List (Tok R)) :
    vecView (.nest false subs : PVec R) = [] ∧ vecLoad (.nest false o : PVec R) f = none := ⟨rfl, rfl⟩

/-- A checkpoint of another discretisation is rejected. -/
example : (write (exEnv false) exSaved).bind (load (exEnv false)
    { exFresh [.nest false [[0, 0], [0]], .nest false [[0, 0], [0]]] with sol := .nest true [[0, 0]] }) = none := by
  rfl

end Tandem.TSSerial
