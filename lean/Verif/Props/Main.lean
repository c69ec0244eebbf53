import Verif.Lemmas.Main
import Verif.Lemmas.MainPath
/-! # Property C53: starting the program -/
namespace Tandem.Main
open Tandem.Schema Tandem.Spec

variable {α L : Type}

/-! ## Command line -/

/-- C53 (PETSc options): the arguments are cut at the first `--petsc`; it and everything behind it, and
nothing else, goes to PETSc. -/
theorem C53_argv (l t p : List String) :
    splitArgs l = (t, p) ↔ l = t ++ p ∧ "--petsc" ∉ t ∧ (p = [] ∨ p.head? = some "--petsc") := by
  induction l generalizing t p with
  | nil =>
    simp only [splitArgs, Prod.mk.injEq, List.nil_eq, List.append_eq_nil_iff]
    constructor
    · rintro ⟨rfl, rfl⟩; simp
    · rintro ⟨⟨rfl, rfl⟩, _⟩; simp
  | cons a r ih =>
    rw [splitArgs]
    by_cases ha : a = "--petsc"
    · rw [if_pos ha]
      simp only [Prod.mk.injEq]
      constructor
      · rintro ⟨rfl, rfl⟩; simp [ha]
      · rintro ⟨h1, h2, h3⟩
        cases t with
        | nil => exact ⟨rfl, h1⟩
        | cons x t =>
          simp only [List.cons_append, List.cons.injEq] at h1
          exact absurd (by rw [← h1.1, ha]; exact List.mem_cons_self) h2
    · rw [if_neg ha]
      have h0 := ih (splitArgs r).1 (splitArgs r).2
      simp only [true_iff] at h0
      simp only [Prod.mk.injEq]
      constructor
      · rintro ⟨rfl, rfl⟩
        refine ⟨by simpa using h0.1, ?_, h0.2.2⟩
        simp only [List.mem_cons, not_or]
        exact ⟨fun h => ha h.symm, h0.2.1⟩
      · rintro ⟨h1, h2, h3⟩
        cases t with
        | nil =>
          rw [List.nil_append] at h1
          subst h1
          rcases h3 with h3 | h3
          · cases h3
          · simp only [List.head?_cons, Option.some.injEq] at h3
            exact absurd h3 ha
        | cons x t =>
          simp only [List.cons_append, List.cons.injEq] at h1
          simp only [List.mem_cons, not_or] at h2
          have := (ih t p).2 ⟨h1.2, h2.2, h3⟩
          rw [this]
          exact ⟨by rw [h1.1], rfl⟩

example : splitArgs ["tandem", "c.toml", "--petsc", "-ts_max_steps", "3"] =
    (["tandem", "c.toml"], ["--petsc", "-ts_max_steps", "3"]) := by decide

/-! ## Keywords -/

/-- C53 (which words are understood): a value without NUL characters selects the first documented word
of which it is a beginning, ignoring case; if there is none the value counts as unknown (and is
rejected, see `C53_valid`).  Hence abbreviations are accepted. -/
theorem C53_words (v : List Char) (hv : '\x00' ∉ v) :
    modeConv v = (abbreviated modeWords v).getD .unknown ∧
    opConv v = (abbreviated opWords v).getD .unknown ∧
    mgConv v = (abbreviated mgWords v).getD .unknown ∧
    storageConv v = (abbreviated storageWords v).getD .unknown ∧
    tableConv v = (abbreviated tableWords v).getD .unknown ∧
    (∀ hdf5, probeConv hdf5 v =
      match abbreviated (tableWords ++ [("HDF5", TableType.hdf5)]) v with
      | some TableType.hdf5 => if hdf5 then some .hdf5 else none
      | some t => some t
      | none => some .unknown) := by
  have e : ∀ lit : String, '\x00' ∉ lit.toList →
      ieq v lit = decide (lowerCase v <+: lowerCase lit.toList) := fun lit hl => ieq_eq hv lit hl
  simp only [modeConv, opConv, mgConv, storageConv, tableConv, probeConv]
  rw [e "QuasiDynamic" (by decide), e "QD" (by decide), e "QuasiDynamicDiscreteGreen" (by decide),
    e "QDGreen" (by decide), e "FullyDynamic" (by decide), e "FD" (by decide),
    e "poisson" (by decide), e "elastic" (by decide), e "elasticity" (by decide),
    e "TwoLevel" (by decide), e "Logarithmic" (by decide), e "Full" (by decide),
    e "none" (by decide), e "limited" (by decide), e "unlimited" (by decide),
    e "Tecplot" (by decide), e "CSV" (by decide), e "HDF5" (by decide)]
  refine ⟨?_, ?_, ?_, ?_, ?_, ?_⟩
  · simp only [abbreviated, modeWords, List.find?]
    cases decide (lowerCase v <+: lowerCase "QuasiDynamic".toList) <;>
    cases decide (lowerCase v <+: lowerCase "QD".toList) <;>
    cases decide (lowerCase v <+: lowerCase "QuasiDynamicDiscreteGreen".toList) <;>
    cases decide (lowerCase v <+: lowerCase "QDGreen".toList) <;>
    cases decide (lowerCase v <+: lowerCase "FullyDynamic".toList) <;>
    cases decide (lowerCase v <+: lowerCase "FD".toList) <;> rfl
  · simp only [abbreviated, opWords, List.find?]
    cases decide (lowerCase v <+: lowerCase "poisson".toList) <;>
    cases decide (lowerCase v <+: lowerCase "elastic".toList) <;>
    cases decide (lowerCase v <+: lowerCase "elasticity".toList) <;> rfl
  · simp only [abbreviated, mgWords, List.find?]
    cases decide (lowerCase v <+: lowerCase "TwoLevel".toList) <;>
    cases decide (lowerCase v <+: lowerCase "Logarithmic".toList) <;>
    cases decide (lowerCase v <+: lowerCase "Full".toList) <;> rfl
  · simp only [abbreviated, storageWords, List.find?]
    cases decide (lowerCase v <+: lowerCase "none".toList) <;>
    cases decide (lowerCase v <+: lowerCase "limited".toList) <;>
    cases decide (lowerCase v <+: lowerCase "unlimited".toList) <;> rfl
  · simp only [abbreviated, tableWords, List.find?]
    cases decide (lowerCase v <+: lowerCase "Tecplot".toList) <;>
    cases decide (lowerCase v <+: lowerCase "CSV".toList) <;> rfl
  · intro hdf5
    simp only [abbreviated, tableWords, List.find?, List.cons_append, List.nil_append]
    cases decide (lowerCase v <+: lowerCase "Tecplot".toList) <;>
    cases decide (lowerCase v <+: lowerCase "CSV".toList) <;>
    cases decide (lowerCase v <+: lowerCase "HDF5".toList) <;> rfl

/-- C53 (documented keywords): every documented keyword, in any mixture of upper and lower case, selects
what is documented for it. -/
theorem C53_keywords (v : List Char) :
    (∀ p ∈ modeWords, lowerCase v = lowerCase p.1.toList → modeConv v = p.2) ∧
    (∀ p ∈ opWords, lowerCase v = lowerCase p.1.toList → opConv v = p.2) ∧
    (∀ p ∈ mgWords, lowerCase v = lowerCase p.1.toList → mgConv v = p.2) ∧
    (∀ p ∈ storageWords, lowerCase v = lowerCase p.1.toList → storageConv v = p.2) ∧
    (∀ p ∈ tableWords, lowerCase v = lowerCase p.1.toList →
      tableConv v = p.2 ∧ ∀ hdf5, probeConv hdf5 v = some p.2) ∧
    (lowerCase v = lowerCase "HDF5".toList →
      tableConv v = .unknown ∧ probeConv true v = some .hdf5 ∧ probeConv false v = none) := by
  refine ⟨?_, ?_, ?_, ?_, ?_, ?_⟩
  · intro p hp h
    have hn : '\x00' ∉ p.1.toList := by clear h; revert p; decide
    rw [(C53_words v (nul_not_mem h hn)).1, abbreviated, h]
    clear hn h; revert p; decide
  · intro p hp h
    have hn : '\x00' ∉ p.1.toList := by clear h; revert p; decide
    rw [(C53_words v (nul_not_mem h hn)).2.1, abbreviated, h]
    clear hn h; revert p; decide
  · intro p hp h
    have hn : '\x00' ∉ p.1.toList := by clear h; revert p; decide
    rw [(C53_words v (nul_not_mem h hn)).2.2.1, abbreviated, h]
    clear hn h; revert p; decide
  · intro p hp h
    have hn : '\x00' ∉ p.1.toList := by clear h; revert p; decide
    rw [(C53_words v (nul_not_mem h hn)).2.2.2.1, abbreviated, h]
    clear hn h; revert p; decide
  · intro p hp h
    have hn : '\x00' ∉ p.1.toList := by clear h; revert p; decide
    have hw := (C53_words v (nul_not_mem h hn)).2.2.2.2
    refine ⟨?_, fun hdf5 => ?_⟩
    · rw [hw.1, abbreviated, h]
      clear hn h hw; revert p; decide
    · rw [hw.2, abbreviated, h]
      clear hn h hw; revert p hdf5; decide
  · intro h
    have hw := (C53_words v (nul_not_mem h (by decide))).2.2.2.2
    rw [hw.1, hw.2 true, hw.2 false, abbreviated, abbreviated, h]
    decide

/-- C53 (weakness): the empty string and arbitrary abbreviations are accepted. -/
theorem C53_abbreviations :
    modeConv [] = .quasiDynamic ∧ opConv [] = .poisson ∧ storageConv [] = .none ∧
    modeConv "f".toList = .fullyDynamic ∧ modeConv "quasidynamicd".toList =
      .quasiDynamicDiscreteGreen ∧ modeConv "QDGreens".toList = .unknown := by decide

/-- C53 (boundary conditions): exactly the first letter counts. -/
theorem C53_bc_word (v : List Char) (b : BC) :
    bcConv v = some b ↔ ∃ c r, v = c :: r ∧
      ((c.toLower = 'd' ∧ b = .dirichlet) ∨ (c.toLower = 'n' ∧ b = .natural) ∨
        (c.toLower = 'f' ∧ b = .fault)) := by
  have low : ∀ (c l u : Char), l.toLower = l → u.toLower = l → ¬ (l.val ≥ 'A'.val ∧ l.val ≤ 'Z'.val) →
      u.val + 32 = l.val → (c.toLower = l ↔ c = l ∨ c = u) := by
    intro c l u h1 h2 h3 h4
    constructor
    · intro h
      unfold Char.toLower at h
      split at h
      · right
        have h5 : c.val + 32 = l.val := congrArg Char.val h
        apply Char.ext
        rw [← h4] at h5
        exact (UInt32.add_left_inj 32).1 h5
      · exact Or.inl h
    · rintro (rfl | rfl)
      · exact h1
      · exact h2
  cases v with
  | nil => simp [bcConv]
  | cons c r =>
    simp only [bcConv, List.cons.injEq]
    have hd := low c 'd' 'D' (by decide) (by decide) (by decide) (by decide)
    have hn := low c 'n' 'N' (by decide) (by decide) (by decide) (by decide)
    have hf := low c 'f' 'F' (by decide) (by decide) (by decide) (by decide)
    have e : (∃ c' r', (c = c' ∧ r = r') ∧
      ((c'.toLower = 'd' ∧ b = .dirichlet) ∨ (c'.toLower = 'n' ∧ b = .natural) ∨
        (c'.toLower = 'f' ∧ b = .fault))) ↔
      ((c.toLower = 'd' ∧ b = .dirichlet) ∨ (c.toLower = 'n' ∧ b = .natural) ∨
        (c.toLower = 'f' ∧ b = .fault)) :=
      ⟨fun ⟨_, _, ⟨h1, _⟩, h2⟩ => h1 ▸ h2, fun h => ⟨c, r, ⟨rfl, rfl⟩, h⟩⟩
    rw [e]
    simp only [← hd, ← hn, ← hf]
    by_cases h1 : c.toLower = 'd'
    · simp [h1, eq_comm]
    · rw [if_neg h1]
      by_cases h2 : c.toLower = 'n'
      · simp [h2, eq_comm]
      · rw [if_neg h2]
        by_cases h3 : c.toLower = 'f'
        · simp [h3, eq_comm]
        · simp [h1, h2, h3]

/-- C53 (boundary conditions of a generated mesh): a boundary plane gets the condition of the first
entry for that plane whose region is missing or equal; without such an entry it gets none. -/
theorem C53_bc_lookup (l : List BCEntry) (plane : Nat) (region : List Nat) :
    (∃ a x b, l = a ++ x :: b ∧ x.plane = plane ∧ (∀ r, x.region = some r → r = region) ∧
      (∀ y ∈ a, y.plane = plane → ∃ r, y.region = some r ∧ r ≠ region) ∧
      bcFun l plane region = x.bc) ∨
    ((∀ y ∈ l, y.plane = plane → ∃ r, y.region = some r ∧ r ≠ region) ∧
      bcFun l plane region = .none) := by
  induction l with
  | nil => right; simp [bcFun]
  | cons x l ih =>
    rw [bcFun]
    by_cases h : x.plane = plane ∧ (x.region = none ∨ x.region = some region)
    · rw [if_pos h]
      refine Or.inl ⟨[], x, l, rfl, h.1, ?_, by simp, rfl⟩
      intro r hr
      rcases h.2 with h2 | h2 <;> rw [h2] at hr
      · cases hr
      · exact (Option.some.inj hr).symm
    · rw [if_neg h]
      have hx : x.plane = plane → ∃ r, x.region = some r ∧ r ≠ region := by
        intro hp
        cases hr : x.region with
        | none => exact absurd ⟨hp, Or.inl hr⟩ h
        | some r => exact ⟨r, rfl, fun he => h ⟨hp, Or.inr (by rw [hr, he])⟩⟩
      rcases ih with ⟨a, y, b, h1, h2, h3, h4, h5⟩ | ⟨h1, h2⟩
      · refine Or.inl ⟨x :: a, y, b, by rw [h1]; rfl, h2, h3, ?_, h5⟩
        intro z hz
        rcases List.mem_cons.1 hz with rfl | hz
        · exact hx
        · exact h4 z hz
      · refine Or.inr ⟨?_, h2⟩
        intro z hz
        rcases List.mem_cons.1 hz with rfl | hz
        · exact hx
        · exact h1 z hz

example : bcFun [⟨.fault, 0, some [1]⟩, ⟨.dirichlet, 0, none⟩, ⟨.natural, 1, none⟩] 0 [1] = .fault ∧
    bcFun [⟨.fault, 0, some [1]⟩, ⟨.dirichlet, 0, none⟩, ⟨.natural, 1, none⟩] 0 [2] = .dirichlet ∧
    bcFun [⟨.fault, 0, some [1]⟩, ⟨.dirichlet, 0, none⟩, ⟨.natural, 1, none⟩] 2 [2] = .none := by
  decide

/-! ## Paths -/

/-- C53 (mesh file and Lua library): wherever the program is started, an absolute path denotes what it
says and a relative one is searched in the directory of the configuration file. -/
theorem C53_relative_path (cwd : List (List Char)) (config p : List Char)
    (hc : (splitLast config).2 ≠ []) :
    location cwd (makeRelative config p) =
      if p.head? = some '/' then names p else (location cwd config).dropLast ++ names p := by
  by_cases hp : p.head? = some '/'
  · rw [if_pos hp, makeRelative, if_neg (by simp [isRelative, hp]), location, if_pos hp]
  · have hr : isRelative p = true := (isRelative_iff p).2 hp
    rw [if_neg hp, makeRelative, if_pos hr]
    obtain ⟨h1, h2, h3, h4⟩ := parent_spec config
    have ha : parentPath config = [] ∨ parentPath config = ['/'] ∨
        (parentPath config).getLast? ≠ some '/' := Or.inr h4
    have hn := names_append hr ha
    have hrel := append_relative (a := parentPath config) hr
    have hl := names_last config hc
    have hrel' : isRelative (parentPath config) = isRelative config := by
      rcases h2 with h2 | h2
      · exact h2
      · rw [h3 h2, h2]; rfl
    unfold location
    rw [hrel'] at hrel
    by_cases hcf : config.head? = some '/'
    · have h5 : isRelative config = false := by simp [isRelative, hcf]
      rw [h5] at hrel
      have h6 : (append (parentPath config) p).head? = some '/' := by
        simpa [isRelative] using hrel
      rw [if_pos h6, if_pos hcf, hn, h1, hl, List.dropLast_concat]
    · have h5 : isRelative config = true := (isRelative_iff config).2 hcf
      rw [h5] at hrel
      have h6 : (append (parentPath config) p).head? ≠ some '/' := (isRelative_iff _).1 hrel
      rw [if_neg h6, if_neg hcf, hn, h1, hl, ← List.append_assoc, ← List.append_assoc,
        List.dropLast_concat]

example : makeRelative "sim/bp1/c.toml".toList "mesh.msh".toList = "sim/bp1/mesh.msh".toList ∧
    makeRelative "c.toml".toList "mesh.msh".toList = "mesh.msh".toList ∧
    makeRelative "/c.toml".toList "m/mesh.msh".toList = "/m/mesh.msh".toList ∧
    makeRelative "sim/c.toml".toList "/mesh.msh".toList = "/mesh.msh".toList := by decide

/-- C53 (output directories): a prefix without directory part is accepted; otherwise the directory must
exist, and it is the directory in which files with this prefix are created. -/
theorem C53_parent_directory (exist : List Char → Bool) (p : List Char) :
    (parentPathExists exist p = true ↔ ('/' ∈ p → exist (parentPath p) = true)) ∧
    (∀ cwd, '/' ∈ p → (splitLast p).2 ≠ [] →
      location cwd (parentPath p) = (location cwd p).dropLast) := by
  constructor
  · unfold parentPathExists
    by_cases h : parentPath p = []
    · rw [if_pos h]
      simp [(parent_nil_iff p).1 h]
    · rw [if_neg h]
      have : '/' ∈ p := by
        by_contra hn
        exact h ((parent_nil_iff p).2 hn)
      simp [this]
  · intro cwd hm hf
    obtain ⟨h1, h2, h3, h4⟩ := parent_spec p
    have hrel : isRelative (parentPath p) = isRelative p := by
      rcases h2 with h2 | h2
      · exact h2
      · exact absurd hm ((parent_nil_iff p).1 h2)
    unfold location
    by_cases hp : p.head? = some '/'
    · have h5 : (parentPath p).head? = some '/' := by
        rw [show isRelative p = false by simp [isRelative, hp]] at hrel
        simpa [isRelative] using hrel
      rw [if_pos hp, if_pos h5, h1, names_last p hf, List.dropLast_concat]
    · rw [(isRelative_iff p).2 hp] at hrel
      rw [if_neg hp, if_neg ((isRelative_iff _).1 hrel), h1, names_last p hf, ← List.append_assoc,
        List.dropLast_concat]

/-- Extension of a file name. -/
theorem extension_iff (p e : List Char) (he : '.' ∉ e) (he' : '/' ∉ e) (hne : e ≠ []) :
    extension p = '.' :: e ↔
      ∃ s, p = s ++ '.' :: e ∧ s ≠ [] ∧ s.getLast? ≠ some '/' := by
  obtain ⟨h1, h2, h3⟩ := splitLast_spec p
  generalize hd : (splitLast p).1 = d at h1 h3
  generalize hf : (splitLast p).2 = f at h1 h2
  have hlast : ∀ (x : List Char), '.' ∈ x → x = (x.take (x.length - (x.reverse.takeWhile (· ≠ '.')).length - 1)) ++
      '.' :: (x.reverse.takeWhile (· ≠ '.')).reverse := by
    intro x hx
    have hx' : '.' ∈ x.reverse := by simpa using hx
    have key : ∀ (y : List Char), '.' ∈ y → ∃ z, y = y.takeWhile (· ≠ '.') ++ '.' :: z := by
      intro y hy
      induction y with
      | nil => simp at hy
      | cons c y ih =>
        by_cases hc : c = '.'
        · exact ⟨y, by simp [hc]⟩
        · have hy' : '.' ∈ y := by
            rcases List.mem_cons.1 hy with h | h
            · exact absurd h.symm hc
            · exact h
          obtain ⟨z, hz⟩ := ih hy'
          refine ⟨z, ?_⟩
          rw [List.takeWhile_cons_of_pos (by simp [hc]), List.cons_append, ← hz]
    obtain ⟨z, hz⟩ := key _ hx'
    have h4 : x = z.reverse ++ '.' :: (x.reverse.takeWhile (· ≠ '.')).reverse := by
      have := congrArg List.reverse hz
      simpa using this
    generalize (x.reverse.takeWhile (· ≠ '.')).reverse = w at h4 ⊢
    generalize hw : (x.reverse.takeWhile (· ≠ '.')).length = n
    have hn : w.length = n ∨ True := Or.inr trivial
    clear hn
    exact (by
      have hlen : (x.reverse.takeWhile (· ≠ '.')).length + 1 + z.length = x.length := by
        have := congrArg List.length hz
        simp at this
        simp only [ne_eq, decide_not] at *
        omega
      rw [hw] at hlen
      have : x.length - n - 1 = z.length := by omega
      rw [this]
      conv_lhs => rw [h4]
      congr 1
      conv_rhs => rw [h4]
      rw [List.take_left' (by simp)])
  unfold extension
  simp only [hf]
  constructor
  · intro h
    split at h
    · cases h
    · rename_i hcond
      simp only [not_or, not_not] at hcond
      obtain ⟨hc1, hc2, hc3⟩ := hcond
      simp only [List.cons.injEq, true_and] at h
      have h5 := hlast f hc1
      rw [h] at h5
      rw [h] at hc3
      generalize f.take _ = s at h5
      have hs : s ≠ [] := by
        rintro rfl
        apply hc3
        rw [h5]; simp
      refine ⟨d ++ s, by rw [h1, h5, List.append_assoc], by simp [hs], ?_⟩
      rw [List.getLast?_append_of_ne_nil _ hs]
      intro hl
      apply h2
      rw [h5]
      exact List.mem_append_left _ (List.mem_of_getLast? hl)
  · rintro ⟨s, hs1, hs2, hs3⟩
    obtain ⟨g1, g2, g3⟩ := splitLast_spec s
    have hsf : (splitLast s).2 ≠ [] := by
      intro h0
      rw [h0, List.append_nil] at g1
      rcases g3 with g3 | ⟨d', g3⟩
      · exact hs2 (g1.trans g3)
      · rw [g1, g3] at hs3; simp at hs3
    have hu : splitLast p = ((splitLast s).1, (splitLast s).2 ++ '.' :: e) := by
      apply splitLast_unique
      · rw [hs1, ← List.append_assoc, ← g1]
      · simp only [List.mem_append, List.mem_cons, not_or]
        exact ⟨g2, by decide, he'⟩
      · exact g3
    have hf' : f = (splitLast s).2 ++ '.' :: e := by rw [← hf, hu]
    have ht : (f.reverse.takeWhile (· ≠ '.')).reverse = e := by
      rw [hf']
      simp only [List.reverse_append, List.reverse_cons, List.append_assoc, List.singleton_append]
      rw [List.takeWhile_append_of_pos (by
        intro a ha; simp only [List.mem_reverse] at ha
        simp only [ne_eq, decide_eq_true_eq]
        rintro rfl; exact he ha)]
      simp
    rw [ht, if_neg]
    simp only [not_or, not_not]
    refine ⟨by rw [hf']; simp, ?_, ?_⟩
    · rw [hf']
      intro h0
      have := congrArg List.getLast? h0
      rw [List.getLast?_append_of_ne_nil _ (by simp)] at this
      cases e with
      | nil => exact hne rfl
      | cons x e =>
        rw [List.getLast?_cons_cons] at this
        have h6 : '.' ∈ x :: e := List.mem_of_getLast? (by simpa using this)
        exact he h6
    · rw [hf']
      simp [hsf]

/-- C53 (mesh formats): a file is read as GMSH mesh iff its name ends with `.msh`, as HDF5 mesh iff it
ends with `.h5`, HDF5 support is built in and the domain is three-dimensional (a name consists of more
than the ending); otherwise an error is reported. -/
theorem C53_mesh_format (hdf5 : Bool) (D : Nat) (file : List Char) :
    (createParser hdf5 D file = some .gmsh ↔
      ∃ s, file = s ++ ".msh".toList ∧ s ≠ [] ∧ s.getLast? ≠ some '/') ∧
    (createParser hdf5 D file = some .h5 ↔ hdf5 = true ∧ D = 3 ∧
      ∃ s, file = s ++ ".h5".toList ∧ s ≠ [] ∧ s.getLast? ≠ some '/') := by
  have h1 := extension_iff file "msh".toList (by decide) (by decide) (by decide)
  have h2 := extension_iff file "h5".toList (by decide) (by decide) (by decide)
  have e1 : '.' :: "msh".toList = ".msh".toList := by decide
  have e2 : '.' :: "h5".toList = ".h5".toList := by decide
  rw [e1] at h1
  rw [e2] at h2
  rw [← h1, ← h2]
  unfold createParser
  have hne : ".msh".toList ≠ ".h5".toList := by decide
  by_cases hm : extension file = ".msh".toList
  · rw [hm]
    simp [hne]
  · by_cases hh : extension file = ".h5".toList
    · rw [hh]
      have : ".h5".toList ≠ ".msh".toList := by decide
      cases hdf5 <;> by_cases hD : D = 3 <;> simp [this, hD]
    · rw [if_neg (fun h => hh h.1), if_neg hm, if_neg hh]
      exact ⟨⟨fun h => (by cases h), fun h => absurd h hm⟩,
        ⟨fun h => (by cases h), fun h => absurd h.2.2 hh⟩⟩

example : createParser true 3 "a/b.c/mesh.h5".toList = some .h5 ∧
    createParser true 2 "mesh.h5".toList = none ∧ createParser false 2 "m.x.msh".toList = some .gmsh ∧
    createParser false 2 "a/.msh".toList = none := by decide

/-! ## Reading the configuration -/

/-- C53 (precedence): a configuration results exactly if the command line and the file can be parsed,
the file - completed by an empty section `ts_checkpoint` if it has none - is valid on its own, and each
value given on the command line converts and validates; then a member has the value of the command
line if it is a scalar of the outermost table given there, and that of the file otherwise. -/
theorem C53_precedence (fs : Fields α L) (valid : List (Option (Val L)) → Bool)
    (hn : ((fieldList fs).map Prod.fst).Nodup)
    (args : Option (String → Option (List Char))) (file : Option (List (String × Node α)))
    (vs : List (Option (Val L))) :
    readConfig fs valid args file = some vs ↔
    ∃ present l n ws, args = some present ∧ file = some l ∧
      (∀ k, Node.get n k = if k = "ts_checkpoint" ∧ (Node.tbl l).get k = none
        then some (.arr []) else (Node.tbl l).get k) ∧
      Reads (.table fs valid) n (.recd ws) ∧ vs.length = ws.length ∧
      ∀ (i : Nat) (k : String) (d : Kind L) (s : Schema α L),
        (fieldList fs)[i]? = some (k, d, s) →
        ∀ w r, ws[i]? = some w → vs[i]? = some r → AfterCmdLine s (present k) w r := by
  rw [readConfig_iff fs valid hn]
  have conv : ∀ (l : List (String × Node α)) (k : String),
      (if k = "ts_checkpoint" ∧ (Node.tbl l).get k = none
        then some (.arr []) else (Node.tbl l).get k) = (addTs l).get k := by
    intro l k
    rw [addTs_get]
    by_cases hk : k = "ts_checkpoint"
    · subst hk; rfl
    · rw [if_neg (by simp [hk]), if_neg (by simp [hk])]
  constructor
  · rintro ⟨present, l, ws, h1, h2, h3, h4, h5⟩
    exact ⟨present, l, addTs l, ws, h1, h2, fun k => (conv l k).symm,
      (translate_iff _ _ _).1 h3, h4, h5⟩
  · rintro ⟨present, l, n, ws, h1, h2, h3, h4, h5, h6⟩
    refine ⟨present, l, ws, h1, h2, ?_, h5, h6⟩
    rw [C12_unknown_keys_ignored fs valid (addTs l) n (fun k _ _ _ => by rw [h3 k, conv])]
    exact (translate_iff _ _ _).2 h4

/-- C53 (weakness): a required value that is missing in the file cannot be supplied on the command
line, although there is an option for it. -/
theorem C53_required_in_file (fs : Fields α L) (valid : List (Option (Val L)) → Bool)
    (hn : ((fieldList fs).map Prod.fst).Nodup)
    (args : Option (String → Option (List Char))) (l : List (String × Node α))
    (k : String) (s : Schema α L) (hm : (k, .required, s) ∈ fieldList fs)
    (hk : k ≠ "ts_checkpoint") (hl : (Node.tbl l).get k = none) :
    readConfig fs valid args (some l) = none := by
  cases h : readConfig fs valid args (some l) with
  | none => rfl
  | some vs =>
    obtain ⟨present, l', w, _, h2, h3, _⟩ := member_read fs valid hn h hm
    cases h2
    rw [addTs_get, if_neg (by simp [hk]), hl] at h3
    exact h3.elim

theorem configFields_nodup (e : Env α) (D : Nat) :
    ((fieldList (configFields e D)).map Prod.fst).Nodup := by
  show (["resolution", "final_time", "mesh_file", "cfl", "mode", "type", "lib", "scenario", "up",
    "ref_normal", "boundary_linear", "matrix_free", "mg_coarse_level", "mg_strategy",
    "generate_mesh", "fault_output", "fault_scalar_output", "domain_output", "fault_probe_output",
    "domain_probe_output", "moment_rate_output", "gf_checkpoint", "ts_checkpoint"] : List String).Nodup
  decide

/-- Values of the scalar members of an output section. -/
theorem output_ok (e : Env α) (rest : Fields α Leaf)
    (hn : ((fieldList (outputFields e rest)).map Prod.fst).Nodup) (n : Node α)
    (us : List (Option (Val Leaf))) (h : translateFields (outputFields e rest) n = .ok us) :
    GoodOutput e (outputFields e rest) (some (.recd us)) := by
  have real : ∀ (i : Nat) (k : String) (x0 : ℚ) (p : ℚ → Bool), p x0 = true →
      (fieldList (outputFields e rest))[i]? = some (k, dflt (.real x0), realV e p) →
      ∃ x, memberOf (outputFields e rest) us k = some (.leaf (.real x)) ∧ p x = true := by
    intro i k x0 p hp hi
    rcases member_value' _ hn h (List.mem_of_getElem? hi) with ⟨x, h1, h2, _⟩ | ⟨v, h1, h2⟩ | ⟨h1, _⟩
    · cases x with
      | real x => exact ⟨x, h1, h2⟩
      | _ => cases h2
    · cases h1; exact ⟨x0, h2, hp⟩
    · cases h1
  obtain ⟨a, ha, ha'⟩ := real 1 "atol" _ _ (by decide +kernel) rfl
  obtain ⟨b, hb, hb'⟩ := real 2 "rtol" _ _ (by decide +kernel) rfl
  obtain ⟨c, hc, hc'⟩ := real 3 "t_min" _ _ (by decide +kernel) rfl
  obtain ⟨d, hd, hd'⟩ := real 4 "t_max" _ _ (by decide +kernel) rfl
  have hpre : ∃ p, memberOf (outputFields e rest) us "prefix" = some (.leaf (.str p)) ∧
      parentPathExists e.exist p = true := by
    rcases member_value' _ hn h (List.mem_of_getElem? (i := 0)
      (rfl : (fieldList (outputFields e rest))[0]? = some ("prefix", .required,
        strV e id (parentPathExists e.exist)))) with ⟨x, h1, h2, _⟩ | ⟨v, h1, h2⟩ | ⟨h1, _⟩
    · cases x with
      | str x => exact ⟨x, h1, h2⟩
      | _ => cases h2
    · cases h1
    · cases h1
  obtain ⟨p, hp, hp'⟩ := hpre
  intro v hv
  cases hv
  exact ⟨us, p, a, b, c, d, rfl, hp, ha, hb, hc, hd, ((C53_parent_directory e.exist p).1).1 hp',
    of_decide_eq_true ha', of_decide_eq_true hb', of_decide_eq_true hc', of_decide_eq_true hd'⟩

/-- C53 (accepted configurations): whatever the file and the command line contain, an accepted
configuration of tandem satisfies all documented constraints. -/
theorem C53_valid (e : Env α) (D : Nat) (args : Option (String → Option (List Char)))
    (file : Option (List (String × Node α))) (vs : List (Option (Val Leaf)))
    (h : readConfig (configFields e D) (fun _ => true) args file = some vs) :
    let m := memberOf (configFields e D) vs
    (∃ t, m "final_time" = some (.leaf (.real t)) ∧ 0 ≤ t) ∧
    (∃ c, m "cfl" = some (.leaf (.real c)) ∧ 0 < c) ∧
    (∃ x, m "mode" = some (.leaf (.mode x)) ∧ x ≠ .unknown) ∧
    (∃ x, m "type" = some (.leaf (.op x)) ∧ x ≠ .unknown) ∧
    (∃ x, m "mg_strategy" = some (.leaf (.mg x)) ∧ x ≠ .unknown) ∧
    (∃ p, m "lib" = some (.leaf (.str p)) ∧ e.exist p = true) ∧
    (∀ v, m "mesh_file" = some v → ∃ p, v = .leaf (.str p) ∧ e.exist p = true) ∧
    (∀ v, m "resolution" = some v → ∃ x, v = .leaf (.real x) ∧ 0 < x) ∧
    GoodOutput e (outputFields e .nil) (m "fault_output") ∧
    GoodOutput e (outputFields e .nil) (m "moment_rate_output") ∧
    GoodOutput e (domainFields e) (m "domain_output") ∧
    GoodOutput e (tabularFields e) (m "fault_scalar_output") ∧
    GoodOutput e (probeFields e D) (m "fault_probe_output") ∧
    GoodOutput e (probeFields e D) (m "domain_probe_output") := by
  have hn := configFields_nodup e D
  have get : ∀ {i : Nat} {k : String} {d : Kind Leaf} {c f ok},
      (fieldList (configFields e D))[i]? = some (k, d, Schema.value c f ok) → _ :=
    fun {i k d c f ok} hi => member_value (configFields e D) (fun _ => true) hn h
      (List.mem_of_getElem? hi)
  have tab : ∀ {i : Nat} {k : String} {ff : Fields α Leaf},
      (fieldList (configFields e D))[i]? = some (k, .optional, tableOf ff) →
      (∃ n us, translateFields ff n = .ok us ∧
        memberOf (configFields e D) vs k = some (.recd us)) ∨
      memberOf (configFields e D) vs k = none := by
    intro i k ff hi
    rcases member_table (configFields e D) (fun _ => true) hn h (List.mem_of_getElem? hi)
      (fun v hv => by cases hv) with h1 | h1
    · exact Or.inl h1
    · exact Or.inr h1.2
  have out : ∀ {i : Nat} {k : String} (rest : Fields α Leaf),
      (fieldList (configFields e D))[i]? = some (k, .optional, tableOf (outputFields e rest)) →
      ((fieldList (outputFields e rest)).map Prod.fst).Nodup →
      GoodOutput e (outputFields e rest) (memberOf (configFields e D) vs k) := by
    intro i k rest hi hn'
    rcases tab hi with ⟨n, us, h1, h2⟩ | h1
    · rw [h2]; exact output_ok e rest hn' n us h1
    · rw [h1]; intro v hv; cases hv
  intro m
  refine ⟨?_, ?_, ?_, ?_, ?_, ?_, ?_, ?_, ?_, ?_, ?_, ?_, ?_, ?_⟩
  · rcases get (i := 1) rfl with ⟨x, h1, h2, _⟩ | ⟨v, h1, _⟩ | ⟨h1, _⟩
    · cases x with
      | real x => exact ⟨x, h1, of_decide_eq_true h2⟩
      | _ => cases h2
    · cases h1
    · cases h1
  · rcases get (i := 3) rfl with ⟨x, h1, h2, _⟩ | ⟨v, h1, h2⟩ | ⟨h1, _⟩
    · cases x with
      | real x => exact ⟨x, h1, of_decide_eq_true h2⟩
      | _ => cases h2
    · cases h1; exact ⟨1, h2, by decide⟩
    · cases h1
  · rcases get (i := 4) rfl with ⟨x, h1, h2, _⟩ | ⟨v, h1, _⟩ | ⟨h1, _⟩
    · cases x with
      | mode x => exact ⟨x, h1, by simpa using h2⟩
      | _ => cases h2
    · cases h1
    · cases h1
  · rcases get (i := 5) rfl with ⟨x, h1, h2, _⟩ | ⟨v, h1, _⟩ | ⟨h1, _⟩
    · cases x with
      | op x => exact ⟨x, h1, by simpa using h2⟩
      | _ => cases h2
    · cases h1
    · cases h1
  · rcases get (i := 13) rfl with ⟨x, h1, h2, _⟩ | ⟨v, h1, h2⟩ | ⟨h1, _⟩
    · cases x with
      | mg x => exact ⟨x, h1, by simpa using h2⟩
      | _ => cases h2
    · cases h1; exact ⟨_, h2, by decide⟩
    · cases h1
  · rcases get (i := 6) rfl with ⟨x, h1, h2, _⟩ | ⟨v, h1, _⟩ | ⟨h1, _⟩
    · cases x with
      | str x => exact ⟨x, h1, h2⟩
      | _ => cases h2
    · cases h1
    · cases h1
  · intro v hv
    rcases get (i := 2) rfl with ⟨x, h1, h2, _⟩ | ⟨v, h1, _⟩ | ⟨_, h1⟩
    · have : v = .leaf x := Option.some.inj (hv.symm.trans h1)
      cases x with
      | str x => exact ⟨x, this, h2⟩
      | _ => cases h2
    · cases h1
    · have := hv.symm.trans h1
      cases this
  · intro v hv
    rcases get (i := 0) rfl with ⟨x, h1, h2, _⟩ | ⟨v, h1, _⟩ | ⟨_, h1⟩
    · have : v = .leaf x := Option.some.inj (hv.symm.trans h1)
      cases x with
      | real x => exact ⟨x, this, of_decide_eq_true h2⟩
      | _ => cases h2
    · cases h1
    · have := hv.symm.trans h1
      cases this
  · exact out (i := 15) .nil rfl (by
      show (["prefix", "atol", "rtol", "t_min", "t_max"] : List String).Nodup; decide)
  · exact out (i := 20) .nil rfl (by
      show (["prefix", "atol", "rtol", "t_min", "t_max"] : List String).Nodup; decide)
  · exact out (i := 17) _ rfl (by
      show (["prefix", "atol", "rtol", "t_min", "t_max", "jacobian"] : List String).Nodup; decide)
  · exact out (i := 16) _ rfl (by
      show (["prefix", "atol", "rtol", "t_min", "t_max", "type"] : List String).Nodup; decide)
  · exact out (i := 18) _ rfl (by
      show (["prefix", "atol", "rtol", "t_min", "t_max", "type", "probes"] : List String).Nodup
      decide)
  · exact out (i := 19) _ rfl (by
      show (["prefix", "atol", "rtol", "t_min", "t_max", "type", "probes"] : List String).Nodup
      decide)

/-- C53 (formats and checkpoints): scalar output is never HDF5 and probe output only in builds that
support it; the checkpoint section always exists, with positive frequencies and a known storage type,
and a directory to load from exists. -/
theorem C53_valid_sections (e : Env α) (D : Nat) (args : Option (String → Option (List Char)))
    (file : Option (List (String × Node α))) (vs : List (Option (Val Leaf)))
    (h : readConfig (configFields e D) (fun _ => true) args file = some vs) :
    let m := memberOf (configFields e D) vs
    (∀ us, m "fault_scalar_output" = some (.recd us) → ∃ t,
      memberOf (tabularFields e) us "type" = some (.leaf (.table t)) ∧ (t = .csv ∨ t = .tecplot)) ∧
    (∀ k us, k = "fault_probe_output" ∨ k = "domain_probe_output" → m k = some (.recd us) → ∃ t,
      memberOf (probeFields e D) us "type" = some (.leaf (.table t)) ∧
      (t = .csv ∨ t = .tecplot ∨ (t = .hdf5 ∧ e.hdf5 = true))) ∧
    (∃ us n x y k s, m "ts_checkpoint" = some (.recd us) ∧
      memberOf (tsFields e) us "freq_step" = some (.leaf (.int n)) ∧ 0 < n ∧
      memberOf (tsFields e) us "freq_cputime" = some (.leaf (.real x)) ∧ 0 < x ∧
      memberOf (tsFields e) us "freq_physical_time" = some (.leaf (.real y)) ∧ 0 < y ∧
      memberOf (tsFields e) us "storage_limited_size" = some (.leaf (.int k)) ∧ 0 < k ∧
      memberOf (tsFields e) us "storage_type" = some (.leaf (.storage s)) ∧ s ≠ .unknown ∧
      ∀ v, memberOf (tsFields e) us "load_directory" = some v →
        ∃ p, v = .leaf (.str p) ∧ e.exist p = true) := by
  have hn := configFields_nodup e D
  have tab : ∀ {i : Nat} {k : String} {d : Kind Leaf} {ff : Fields α Leaf},
      (fieldList (configFields e D))[i]? = some (k, d, tableOf ff) → (∀ v, d ≠ .default v) → _ :=
    fun {i k d ff} hi hd => member_table (configFields e D) (fun _ => true) hn h
      (ff := ff) (List.mem_of_getElem? hi) hd
  intro m
  refine ⟨?_, ?_, ?_⟩
  · intro us hus
    rcases tab (i := 16) (ff := tabularFields e) rfl (fun v hv => by cases hv) with
      ⟨n, us', h1, h2⟩ | ⟨_, h2⟩
    · have he := Option.some.inj (hus.symm.trans h2)
      cases he
      have hn' : ((fieldList (tabularFields e)).map Prod.fst).Nodup := by
        show (["prefix", "atol", "rtol", "t_min", "t_max", "type"] : List String).Nodup; decide
      rcases member_value' (tabularFields e) hn' h1 (k := "type")
        (List.mem_of_getElem? (i := 5) rfl) with ⟨x, h3, h4, h5⟩ | ⟨v, h3, h4⟩ | ⟨h3, _⟩
      · cases x with
        | table t =>
          refine ⟨t, h3, ?_⟩
          have conv : ∀ s, tableConv s = t → t = .csv ∨ t = .tecplot := by
            intro s hs
            have h4' : t ≠ .unknown := by simpa using h4
            unfold tableConv at hs
            split at hs
            · exact Or.inr hs.symm
            · split at hs
              · exact Or.inl hs.symm
              · exact absurd hs.symm h4'
          rcases h5 with ⟨a, ha⟩ | ⟨s, hs⟩
          · beta_reduce at ha
            cases hs : e.str a with
            | none => rw [hs] at ha; cases ha
            | some s =>
              rw [hs] at ha
              exact conv s (by simpa using ha)
          · exact conv s (by simpa using hs)
        | _ => cases h4
      · cases h3; exact ⟨_, h4, Or.inl rfl⟩
      · cases h3
    · have := hus.symm.trans h2
      cases this
  · intro k us hk hus
    have hex : ∃ n, translateFields (probeFields e D) n = .ok us := by
      rcases hk with rfl | rfl
      · rcases tab (i := 18) (ff := probeFields e D) rfl (fun v hv => by cases hv) with
          ⟨n, us', h1, h2⟩ | ⟨_, h2⟩
        · have he := Option.some.inj (hus.symm.trans h2)
          cases he; exact ⟨n, h1⟩
        · have := hus.symm.trans h2
          cases this
      · rcases tab (i := 19) (ff := probeFields e D) rfl (fun v hv => by cases hv) with
          ⟨n, us', h1, h2⟩ | ⟨_, h2⟩
        · have he := Option.some.inj (hus.symm.trans h2)
          cases he; exact ⟨n, h1⟩
        · have := hus.symm.trans h2
          cases this
    obtain ⟨n, h1⟩ := hex
    have hn' : ((fieldList (probeFields e D)).map Prod.fst).Nodup := by
      show (["prefix", "atol", "rtol", "t_min", "t_max", "type", "probes"] : List String).Nodup
      decide
    rcases member_value' (probeFields e D) hn' h1 (k := "type")
      (List.mem_of_getElem? (i := 5) rfl) with ⟨x, h3, h4, h5⟩ | ⟨v, h3, h4⟩ | ⟨h3, _⟩
    · cases x with
      | table t =>
        refine ⟨t, h3, ?_⟩
        have conv : ∀ s, probeConv e.hdf5 s = some t →
            (t = .csv ∨ t = .tecplot ∨ (t = .hdf5 ∧ e.hdf5 = true)) := by
          intro s hs
          have h4' : t ≠ .unknown := by simpa using h4
          unfold probeConv at hs
          split at hs
          · exact Or.inr (Or.inl (Option.some.inj hs).symm)
          · split at hs
            · exact Or.inl (Option.some.inj hs).symm
            · split at hs
              · split at hs
                · rename_i h5; exact Or.inr (Or.inr ⟨(Option.some.inj hs).symm, h5⟩)
                · cases hs
              · exact absurd (Option.some.inj hs).symm h4'
        rcases h5 with ⟨a, ha⟩ | ⟨s, hs⟩
        · beta_reduce at ha
          cases hs : e.str a with
          | none => rw [hs] at ha; cases ha
          | some s =>
            rw [hs] at ha
            exact conv s (by simpa using ha)
        · exact conv s (by simpa using hs)
      | _ => cases h4
    · cases h3; exact ⟨_, h4, Or.inl rfl⟩
    · cases h3
  · rcases tab (i := 22) (ff := tsFields e) rfl (fun v hv => by cases hv) with
      ⟨n, us, h1, h2⟩ | ⟨h2, _⟩
    · have hn' : ((fieldList (tsFields e)).map Prod.fst).Nodup := by
        show (["load_directory", "save_directory", "freq_step", "freq_cputime",
          "freq_physical_time", "storage_type", "storage_limited_size"] : List String).Nodup
        decide
      have real : ∀ (i : Nat) (k : String) (x0 : ℚ) (p : ℚ → Bool), p x0 = true →
          (fieldList (tsFields e))[i]? = some (k, dflt (.real x0), realV e p) →
          ∃ x, memberOf (tsFields e) us k = some (.leaf (.real x)) ∧ p x = true := by
        intro i k x0 p hp hi
        rcases member_value' _ hn' h1 (List.mem_of_getElem? hi) with
          ⟨x, h1, h2, _⟩ | ⟨v, h1, h2⟩ | ⟨h1, _⟩
        · cases x with
          | real x => exact ⟨x, h1, h2⟩
          | _ => cases h2
        · cases h1; exact ⟨x0, h2, hp⟩
        · cases h1
      have int : ∀ (i : Nat) (k : String) (x0 : Int) (p : Int → Bool), p x0 = true →
          (fieldList (tsFields e))[i]? = some (k, dflt (.int x0), intV e p) →
          ∃ x, memberOf (tsFields e) us k = some (.leaf (.int x)) ∧ p x = true := by
        intro i k x0 p hp hi
        rcases member_value' _ hn' h1 (List.mem_of_getElem? hi) with
          ⟨x, h1, h2, _⟩ | ⟨v, h1, h2⟩ | ⟨h1, _⟩
        · cases x with
          | int x => exact ⟨x, h1, h2⟩
          | _ => cases h2
        · cases h1; exact ⟨x0, h2, hp⟩
        · cases h1
      obtain ⟨a, ha, ha'⟩ := int 2 "freq_step" _ _ (by decide +kernel) rfl
      obtain ⟨b, hb, hb'⟩ := real 3 "freq_cputime" _ _ (by decide +kernel) rfl
      obtain ⟨c, hc, hc'⟩ := real 4 "freq_physical_time" _ _ (by decide +kernel) rfl
      obtain ⟨d, hd, hd'⟩ := int 6 "storage_limited_size" _ _ (by decide +kernel) rfl
      have hst : ∃ s, memberOf (tsFields e) us "storage_type" = some (.leaf (.storage s)) ∧
          s ≠ .unknown := by
        rcases member_value' (tsFields e) hn' h1 (k := "storage_type")
          (List.mem_of_getElem? (i := 5) rfl) with ⟨x, h3, h4, h5⟩ | ⟨v, h3, h4⟩ | ⟨h3, _⟩
        · cases x with
          | storage x => exact ⟨x, h3, by simpa using h4⟩
          | _ => cases h4
        · cases h3; exact ⟨_, h4, by decide⟩
        · cases h3
      obtain ⟨s, hs, hs'⟩ := hst
      refine ⟨us, a, b, c, d, s, h2, ha, of_decide_eq_true ha', hb, of_decide_eq_true hb', hc,
        of_decide_eq_true hc', hd, of_decide_eq_true hd', hs, hs', ?_⟩
      intro v hv
      rcases member_value' (tsFields e) hn' h1 (k := "load_directory")
        (List.mem_of_getElem? (i := 0) rfl) with ⟨x, h3, h4, h5⟩ | ⟨v, h3, h4⟩ | ⟨_, h3⟩
      · have : v = .leaf x := Option.some.inj (hv.symm.trans h3)
        cases x with
        | str x => exact ⟨x, this, h4⟩
        | _ => cases h4
      · cases h3
      · have := hv.symm.trans h3
        cases this
    · cases h2

/-- A small environment: scalars are numbers or strings, every number on the command line is read as 7,
every file exists. -/
def exEnv : Env (ℚ ⊕ String) where
  real := fun s => s.elim some (fun _ => none)
  int := fun s => s.elim (fun x => some x.num) (fun _ => none)
  str := fun s => s.elim (fun _ => none) (fun t => some t.toList)
  bool := fun _ => none
  sReal := fun _ => some 7
  sInt := fun _ => some 7
  sBool := fun _ => some true
  exist := fun _ => true
  config := "dir/c.toml".toList
  hdf5 := false

/-- A minimal configuration file. -/
def exFile : List (String × Node (ℚ ⊕ String)) :=
  [("final_time", .leaf (.inl 100)), ("mode", .leaf (.inr "qd")), ("type", .leaf (.inr "Elastic")),
   ("lib", .leaf (.inr "x.lua")), ("scenario", .leaf (.inr "s")),
   ("ref_normal", .arr [.leaf (.inl 1), .leaf (.inl 0)])]

/-- The scalar in a member. -/
def leafOf (vs : List (Option (Val Leaf))) (k : String) : Option Leaf :=
  match memberOf (configFields exEnv 2) vs k with
  | some (.leaf x) => some x
  | _ => none

/-- The example is accepted, and the command line takes precedence. -/
theorem example_accepted :
    (readConfig (configFields exEnv 2) (fun _ => true)
      (some (fun k => if k = "final_time" then some "7".toList else none)) (some exFile)).map
      (fun vs => (leafOf vs "final_time", leafOf vs "mode", leafOf vs "lib")) =
    some (some (.real 7), some (.mode .quasiDynamic), some (.str "dir/x.lua".toList)) := by
  decide +kernel

/-! ## `main` -/

/-- C53 (all ranks agree): although only rank 0 reads the mesh file, all ranks take the same decision. -/
theorem C53_same_decision (parse : List Char → Bool) (cfg : Option Cfg) (procs r r' : Nat) :
    mainRank parse cfg procs r = mainRank parse cfg procs r' := rfl

/-- C53 (when the simulation starts): it starts with the mesh of the file iff the configuration is
accepted, is not a Green's function run without linear boundaries, names a mesh file and the file can
be read; with the generated mesh iff no mesh file is named but mesh generation and resolution are
given.  In particular a mesh file that cannot be read is an error even if a mesh could be
generated. -/
theorem C53_main (parse : List Char → Bool) (cfg : Option Cfg) (procs rank : Nat) :
    (∀ hash, mainRank parse cfg procs rank = .solveFile hash ↔
      (∃ c f, cfg = some c ∧ (c.green = true → c.boundaryLinear = true) ∧ c.meshFile = some f ∧
        parse f = true) ∧ (hash = true ↔ 1 < procs)) ∧
    (∀ h, mainRank parse cfg procs rank = .solveGenerated h ↔
      ∃ c, cfg = some c ∧ (c.green = true → c.boundaryLinear = true) ∧ c.meshFile = none ∧
        c.generateMesh = true ∧ c.resolution = some h) := by
  cases cfg with
  | none => simp [mainRank]
  | some c =>
    obtain ⟨g, b, mf, gm, res⟩ := c
    simp only [mainRank, bcast, localOk, if_pos, Option.some.injEq, exists_eq_left', ↓reduceIte]
    by_cases hg : g = true ∧ b = false
    · simp [hg.1, hg.2]
    · rw [if_neg hg]
      have hg' : g = true → b = true := by
        intro h1
        cases b with
        | true => rfl
        | false => exact absurd ⟨h1, rfl⟩ hg
      cases mf with
      | some f =>
        by_cases hp : parse f = true
        · simp only [hp, if_true]
          refine ⟨fun hash => ?_, fun h => ?_⟩
          · simp only [Action.solveFile.injEq]
            constructor
            · rintro rfl; exact ⟨⟨_, f, rfl, hg', rfl, hp⟩, by simp⟩
            · rintro ⟨_, h2⟩
              cases hash <;> simp_all
          · simp
        · simp [hp]
      | none =>
        cases gm <;> cases res <;> simp <;> exact hg'

/-! ## Writers -/

theorem or_shuffle {a b c d e f : Prop} :
    ((((((a ∨ b) ∨ c) ∨ d) ∨ e) ∨ f) ↔ c ∨ e ∨ f ∨ d ∨ a ∨ b) := by tauto

/-- C53 (output files): unless fault and domain output have the same prefix, which is refused, every
accepted configuration leads to exactly one writer for each output section - none for probe sections
without probes, and none for moment rates in builds without HDF5 - with the prefix and format of the
section. -/
theorem C53_writers (hdf5 : Bool) (o : Outputs)
    (hs : ∀ p t, o.faultScalar = some (p, t) → t = .csv ∨ t = .tecplot)
    (hf : ∀ p t n, o.faultProbe = some (p, t, n) →
      t = .csv ∨ t = .tecplot ∨ (t = .hdf5 ∧ hdf5 = true))
    (hd : ∀ p t n, o.domainProbe = some (p, t, n) →
      t = .csv ∨ t = .tecplot ∨ (t = .hdf5 ∧ hdf5 = true)) :
    (addWriters hdf5 o = none ↔ ∃ p, o.fault = some p ∧ o.domain = some p) ∧
    ∀ ws, addWriters hdf5 o = some ws →
      (ws.map Writer.kind).Nodup ∧
      ∀ w, w ∈ ws ↔
        (w.kind = .fault ∧ o.fault = some w.pre ∧ w.format = none) ∨
        (w.kind = .domain ∧ o.domain = some w.pre ∧ w.format = none) ∨
        (w.kind = .momentRate ∧ hdf5 = true ∧ o.momentRate = some w.pre ∧ w.format = none) ∨
        (∃ t, w.kind = .faultScalar ∧ o.faultScalar = some (w.pre, t) ∧ w.format = some t) ∨
        (∃ t n, w.kind = .faultProbe ∧ o.faultProbe = some (w.pre, t, n) ∧ 0 < n ∧
          w.format = some t) ∨
        (∃ t n, w.kind = .domainProbe ∧ o.domainProbe = some (w.pre, t, n) ∧ 0 < n ∧
          w.format = some t) := by
  have probe : ∀ (kind : WriterKind) (q : Option (List Char × TableType × Nat)),
      (∀ p t n, q = some (p, t, n) → t = .csv ∨ t = .tecplot ∨ (t = .hdf5 ∧ hdf5 = true)) →
      ∃ l, probeWriter hdf5 kind q = some l ∧
        (l = [] ∧ (∀ p t n, q = some (p, t, n) → n = 0) ∨
          ∃ p t n, q = some (p, t, n) ∧ 0 < n ∧ l = [⟨kind, p, some t⟩]) := by
    intro kind q hq
    match q, hq with
    | none, _ => exact ⟨[], rfl, Or.inl ⟨rfl, by simp⟩⟩
    | some (p, t, n), hq =>
      rw [probeWriter]
      by_cases h0 : n = 0
      · rw [if_pos h0]
        refine ⟨[], rfl, Or.inl ⟨rfl, ?_⟩⟩
        intro _ _ _ h; cases h; exact h0
      · rw [if_neg h0]
        refine ⟨[⟨kind, p, some t⟩], ?_, Or.inr ⟨p, t, n, rfl, by omega, rfl⟩⟩
        rcases hq p t n rfl with rfl | rfl | ⟨rfl, h⟩
        · rw [if_neg (by simp)]; rfl
        · rw [if_neg (by simp)]; rfl
        · rw [if_pos ⟨h, rfl⟩]
  have scalar : ∃ l, scalarWriter o.faultScalar = some l ∧
      (l = [] ∧ o.faultScalar = none ∨
        ∃ p t, o.faultScalar = some (p, t) ∧ l = [⟨.faultScalar, p, some t⟩]) := by
    cases hq : o.faultScalar with
    | none => exact ⟨[], rfl, Or.inl ⟨rfl, rfl⟩⟩
    | some q =>
      obtain ⟨p, t⟩ := q
      refine ⟨[⟨.faultScalar, p, some t⟩], ?_, Or.inr ⟨p, t, rfl, rfl⟩⟩
      rcases hs p t hq with rfl | rfl <;> rfl
  have clash : prefixClash o = true ↔ ∃ p, o.fault = some p ∧ o.domain = some p := by
    unfold prefixClash
    cases o.fault with
    | none => simp
    | some a =>
      cases o.domain with
      | none => simp
      | some b =>
        simp only [beq_iff_eq, Option.some.injEq]
        exact ⟨fun h => ⟨a, rfl, h.symm⟩, fun ⟨p, h1, h2⟩ => h1.trans h2.symm⟩
  obtain ⟨l1, e1, c1⟩ := probe .faultProbe o.faultProbe hf
  obtain ⟨l2, e2, c2⟩ := probe .domainProbe o.domainProbe hd
  obtain ⟨l3, e3, c3⟩ := scalar
  unfold addWriters
  rw [e1, e2, e3, ← clash]
  constructor
  · by_cases hc : prefixClash o = true
    · simp [hc]
    · simp [hc]
  · intro ws hw
    by_cases hc : prefixClash o = true
    · simp [hc] at hw
    · simp only [hc, Bool.false_eq_true, if_false, Option.some.injEq] at hw
      subst hw
      have hk : ∀ w : Writer, w = ⟨w.kind, w.pre, w.format⟩ := fun _ => rfl
      constructor
      · rcases c1 with ⟨rfl, _⟩ | ⟨p1, t1, n1, _, _, rfl⟩ <;>
        rcases c2 with ⟨rfl, _⟩ | ⟨p2, t2, n2, _, _, rfl⟩ <;>
        rcases c3 with ⟨rfl, _⟩ | ⟨p3, t3, _, rfl⟩ <;>
        cases o.fault <;> cases o.domain <;> cases o.momentRate <;> cases hdf5 <;>
        simp [plainWriter]
      · intro w
        simp only [List.mem_append]
        have m1 : w ∈ l1 ↔ ∃ t n, w.kind = .faultProbe ∧ o.faultProbe = some (w.pre, t, n) ∧ 0 < n ∧
            w.format = some t := by
          rcases c1 with ⟨rfl, h⟩ | ⟨p, t, n, h1, h2, rfl⟩
          · simp only [List.not_mem_nil, false_iff]
            rintro ⟨t, n, _, h2, h3, _⟩
            have := h _ _ _ h2; omega
          · rw [List.mem_singleton]
            constructor
            · rintro rfl; exact ⟨t, n, rfl, h1, h2, rfl⟩
            · rintro ⟨t', n', h3, h4, _, h5⟩
              rw [h1] at h4
              cases h4
              rw [hk w, h3, h5]
        have m2 : w ∈ l2 ↔ ∃ t n, w.kind = .domainProbe ∧ o.domainProbe = some (w.pre, t, n) ∧ 0 < n ∧
            w.format = some t := by
          rcases c2 with ⟨rfl, h⟩ | ⟨p, t, n, h1, h2, rfl⟩
          · simp only [List.not_mem_nil, false_iff]
            rintro ⟨t, n, _, h2, h3, _⟩
            have := h _ _ _ h2; omega
          · rw [List.mem_singleton]
            constructor
            · rintro rfl; exact ⟨t, n, rfl, h1, h2, rfl⟩
            · rintro ⟨t', n', h3, h4, _, h5⟩
              rw [h1] at h4
              cases h4
              rw [hk w, h3, h5]
        have m3 : w ∈ l3 ↔ ∃ t, w.kind = .faultScalar ∧ o.faultScalar = some (w.pre, t) ∧
            w.format = some t := by
          rcases c3 with ⟨rfl, h⟩ | ⟨p, t, h1, rfl⟩
          · rw [h]; simp
          · rw [List.mem_singleton]
            constructor
            · rintro rfl; exact ⟨t, rfl, h1, rfl⟩
            · rintro ⟨t', h3, h4, h5⟩
              rw [h1] at h4
              cases h4
              rw [hk w, h3, h5]
        have pl : ∀ (kind : WriterKind) (q : Option (List Char)),
            w ∈ plainWriter kind q ↔ w.kind = kind ∧ q = some w.pre ∧ w.format = none := by
          intro kind q
          cases q with
          | none => simp [plainWriter]
          | some p =>
            rw [plainWriter, List.mem_singleton]
            constructor
            · rintro rfl; simp
            · rintro ⟨h1, h2, h3⟩
              cases h2
              rw [hk w, h1, h3]
        have m4 : w ∈ (if hdf5 = true then plainWriter .momentRate o.momentRate else []) ↔
            w.kind = .momentRate ∧ hdf5 = true ∧ o.momentRate = some w.pre ∧ w.format = none := by
          by_cases h : hdf5 = true
          · rw [if_pos h, pl]; simp [h]
          · rw [if_neg h]; simp [h]
        rw [m1, m2, m3, m4, pl, pl]
        exact or_shuffle

/-- Other coinciding prefixes are not noticed: both probe outputs write to the same files. -/
theorem C53_prefix_unchecked :
    (addWriters false ⟨none, none, none, some ("a".toList, .csv, 1), some ("a".toList, .csv, 1),
      none⟩).isSome = true := by decide

end Tandem.Main
