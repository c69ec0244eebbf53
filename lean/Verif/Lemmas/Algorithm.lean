import Verif.Model.Algorithm
import Verif.Spec.Algorithm
import Mathlib.Data.List.Perm.Basic
import Mathlib.Data.List.Perm.Subperm
import Mathlib.Data.List.Nodup
/-! Helper lemmas for `apply_permutation` and `find_blocks`. -/
namespace Tandem.Algorithm
open Tandem.Spec

/-- transposition on `Nat` -/
def sw (a b k : Nat) : Nat := if k = a then b else if k = b then a else k

theorem sw_sw (a b k : Nat) : sw a b (sw a b k) = k := by
  unfold sw
  split
  · subst_vars; split <;> simp_all
  · split
    · simp_all
    · simp_all

/-- `f` is injective on and maps into `0..n-1` -/
def PermOn (n : Nat) (f : Nat → Nat) : Prop :=
  (∀ k, k < n → f k < n) ∧ (∀ j k, j < n → k < n → f j = f k → j = k)

/-- number of non-fixed points -/
def moved (n : Nat) (f : Nat → Nat) : Nat := (List.range n).countP (fun k => f k ≠ k)

theorem moved_lt (n : Nat) (f g : Nat → Nat) (c : Nat) (hc : c < n) (hf : f c ≠ c) (hg : g c = c)
    (h : ∀ k, k < n → f k = k → g k = k) : moved n g < moved n f := by
  unfold moved
  have : ∀ l : List Nat, (∀ x ∈ l, x < n) →
      l.countP (fun k => decide (g k ≠ k)) + (if c ∈ l then 1 else 0) ≤
        l.countP (fun k => decide (f k ≠ k)) := by
    intro l
    induction l with
    | nil => simp
    | cons x l ih =>
      intro hx
      have ih' := ih (fun y hy => hx y (by simp [hy]))
      by_cases hxc : x = c
      · subst hxc
        have e1 : List.countP (fun k => decide (g k ≠ k)) (x :: l) =
            List.countP (fun k => decide (g k ≠ k)) l := by
          rw [List.countP_cons_of_neg]; simpa using hg
        have e2 : List.countP (fun k => decide (f k ≠ k)) (x :: l) =
            List.countP (fun k => decide (f k ≠ k)) l + 1 := by
          rw [List.countP_cons_of_pos]; simpa using hf
        rw [e1, e2]
        simp only [List.mem_cons, true_or, if_true]
        split at ih' <;> omega
      · have hm : (c ∈ x :: l) ↔ c ∈ l := by simp [Ne.symm hxc]
        simp only [hm]
        have hx' : x < n := hx x (by simp)
        have := h x hx'
        simp only [List.countP_cons]
        by_cases hfx : f x = x
        · simp [hfx, this hfx]; simpa using ih'
        · by_cases hgx : g x = x
          · simp [hfx, hgx]; simp at ih'; omega
          · simp [hfx, hgx]; simp at ih'; omega
  have h2 := this (List.range n) (by simp)
  simp only [List.mem_range, hc, if_true] at h2
  omega

/-- Behaviour required of a swap functor with respect to a view. -/
def SwapSpec {σ β : Type} (n : Nat) (good : σ → Prop) (view : σ → Nat → β)
    (swap : σ → Nat → Nat → Option σ) : Prop :=
  ∀ s i j, good s → i < n → j < n → ∃ s', swap s i j = some s' ∧ good s' ∧
    ∀ k, k < n → view s' k = view s (sw i j k)

/-- `ind` is the index array seen during a walk that started at `i` and is at `cur`, where `f` is
the permutation that remains to be applied -/
def WalkInv (n i cur : Nat) (f : Nat → Nat) (ind : List Nat) : Prop :=
  ind.length = n ∧ ∀ j, j < n → ind[j]? = some (if f j = cur then i else f j)

theorem walk_ok {σ β : Type} (n : Nat) (good : σ → Prop) (view : σ → Nat → β)
    (swap : σ → Nat → Nat → Option σ) (hsw : SwapSpec n good view swap)
    (i : Nat) (hi : i < n) (fuel : Nat) (s : σ) (ind : List Nat) (cur : Nat) (f : Nat → Nat)
    (hgood : good s) (hcur : cur < n) (hf : PermOn n f) (hinv : WalkInv n i cur f ind)
    (hfix : cur ≠ i → f i = i) (hfuel : moved n f ≤ fuel) :
    ∃ s' ind' g, walk swap i fuel s ind cur = .ok (s', ind') ∧ good s' ∧ PermOn n g ∧
      ind'.length = n ∧ (∀ j, j < n → ind'[j]? = some (g j)) ∧ g i = i ∧
      (∀ j, j < n → f j = j → g j = j) ∧ moved n g ≤ moved n f ∧
      (∀ j, j < n → view s' (g j) = view s (f j)) := by
  induction fuel generalizing s ind cur f with
  | zero =>
    have hfc : f cur = cur := by
      by_cases h : f cur = cur
      · exact h
      · exfalso
        have := moved_lt n f id cur hcur h rfl (by simp)
        omega
    unfold walk
    rw [hinv.2 cur hcur]
    simp only [hfc, if_true, ne_eq, not_true_eq_false, if_false]
    refine ⟨s, _, f, rfl, hgood, hf, by simpa using hinv.1, ?_, ?_, fun _ _ h => h, Nat.le_refl _,
      fun _ _ => rfl⟩
    · intro j hj
      rw [List.getElem?_set]
      by_cases h : cur = j
      · subst h; simp [hinv.1, hcur, hfc]
      · rw [if_neg h, hinv.2 j hj, if_neg]
        intro he
        exact h (hf.2 cur j hcur hj (by rw [hfc, he]))
    · by_cases h : cur = i
      · rw [← h, hfc]
      · exact hfix h
  | succ fuel ih =>
    by_cases hfc : f cur = cur
    · unfold walk
      rw [hinv.2 cur hcur]
      simp only [hfc, if_true, ne_eq, not_true_eq_false, if_false]
      refine ⟨s, _, f, rfl, hgood, hf, by simpa using hinv.1, ?_, ?_, fun _ _ h => h, Nat.le_refl _,
        fun _ _ => rfl⟩
      · intro j hj
        rw [List.getElem?_set]
        by_cases h : cur = j
        · subst h; simp [hinv.1, hcur, hfc]
        · rw [if_neg h, hinv.2 j hj, if_neg]
          intro he
          exact h (hf.2 cur j hcur hj (by rw [hfc, he]))
      · by_cases h : cur = i
        · rw [← h, hfc]
        · exact hfix h
    · have hni : i ≠ f cur := by
        intro he
        by_cases h : cur = i
        · apply hfc; rw [← he, h]
        · have := hfix h
          exact h (hf.2 cur i hcur hi (by rw [this, ← he]))
      unfold walk
      rw [hinv.2 cur hcur]
      simp only [hfc, if_false, if_pos hni]
      have hnx : f cur < n := hf.1 cur hcur
      obtain ⟨s1, hs1, hg1, hv1⟩ := hsw s cur (f cur) hgood hcur hnx
      simp only [hs1]
      let f' : Nat → Nat := fun k => sw cur (f cur) (f k)
      have hswlt : ∀ k, k < n → sw cur (f cur) k < n := by
        intro k hk; unfold sw; split
        · exact hnx
        · split
          · exact hcur
          · exact hk
      have hf' : PermOn n f' := by
        refine ⟨fun k hk => hswlt _ (hf.1 k hk), fun j k hj hk he => hf.2 j k hj hk ?_⟩
        have := congrArg (sw cur (f cur)) he
        simpa [f', sw_sw] using this
      have hf'cur : f' cur = cur := by simp [f', sw, hfc]
      have hmono : ∀ k, k < n → f k = k → f' k = k := by
        intro k hk hfk
        have h1 : k ≠ cur := by rintro rfl; exact hfc hfk
        have h2 : k ≠ f cur := by
          intro he
          exact h1 (hf.2 k cur hk hcur (by rw [hfk]; exact he))
        simp [f', sw, hfk, h1, h2]
      have hmoved : moved n f' < moved n f := moved_lt n f f' cur hcur hfc hf'cur hmono
      have hfix' : f cur ≠ i → f' i = i := by
        intro _
        by_cases h : cur = i
        · subst h; exact hf'cur
        · exact hmono i hi (hfix h)
      have hinv' : WalkInv n i (f cur) f' (ind.set cur cur) := by
        refine ⟨by simpa using hinv.1, ?_⟩
        intro j hj
        rw [List.getElem?_set]
        by_cases h : cur = j
        · subst h
          have : cur ≠ f cur := fun he => hfc he.symm
          rw [hf'cur, if_neg this]; simp [hinv.1, hcur]
        · rw [if_neg h, hinv.2 j hj]
          have hne : f j ≠ f cur := fun he => h (hf.2 j cur hj hcur he).symm
          by_cases h2 : f j = cur
          · simp [f', sw, h2]
          · simp [f', sw, h2, hne]
      obtain ⟨s', ind', g, h1, h2, h3, h4, h5, h6, h7, h8, h9⟩ :=
        ih s1 (ind.set cur cur) (f cur) f' hg1 hnx hf' hinv' hfix' (by omega)
      refine ⟨s', ind', g, h1, h2, h3, h4, h5, h6, fun j hj hfj => h7 j hj (hmono j hj hfj),
        by omega, ?_⟩
      intro j hj
      rw [h9 j hj, hv1 _ (hf'.1 j hj)]
      simp [f', sw_sw]

theorem outer_ok {σ β : Type} (n : Nat) (good : σ → Prop) (view : σ → Nat → β)
    (swap : σ → Nat → Nat → Option σ) (hsw : SwapSpec n good view swap) (fuel : Nat)
    (todo i : Nat) (s : σ) (ind : List Nat) (f : Nat → Nat) (hi : i + todo = n)
    (hgood : good s) (hf : PermOn n f) (hlen : ind.length = n)
    (hind : ∀ j, j < n → ind[j]? = some (f j)) (hfix : ∀ j, j < i → f j = j)
    (hfuel : moved n f ≤ fuel) :
    ∃ s' ind', outer swap fuel todo i s ind = .ok (s', ind') ∧ good s' ∧
      ind' = List.range n ∧ (∀ j, j < n → view s' j = view s (f j)) := by
  induction todo generalizing i s ind f with
  | zero =>
    refine ⟨s, ind, rfl, hgood, ?_, ?_⟩
    · apply List.ext_getElem?
      intro j
      by_cases hj : j < n
      · rw [hind j hj, hfix j (by omega)]; simp [hj]
      · rw [List.getElem?_eq_none (by omega), List.getElem?_eq_none (by simp; omega)]
    · intro j hj; rw [hfix j (by omega)]
  | succ todo ih =>
    have hin : i < n := by omega
    have hinv : WalkInv n i i f ind := by
      refine ⟨hlen, fun j hj => ?_⟩
      rw [hind j hj]; split <;> simp_all
    obtain ⟨s1, ind1, g, h1, h2, h3, h4, h5, h6, h7, h8, h9⟩ :=
      walk_ok n good view swap hsw i hin fuel s ind i f hgood hin hf hinv (by simp) hfuel
    have hfix' : ∀ j, j < i + 1 → g j = j := by
      intro j hj
      by_cases h : j = i
      · rw [h, h6]
      · exact h7 j (by omega) (hfix j (by omega))
    obtain ⟨s', ind', e1, e2, e3, e4⟩ :=
      ih (i + 1) s1 ind1 g (by omega) h2 h3 h4 h5 hfix' (by omega)
    refine ⟨s', ind', ?_, e2, e3, fun j hj => ?_⟩
    · simp only [outer, h1, e1]
    · rw [e4 j hj, h9 j hj]

theorem permOn_of_isPermutation (p : List Nat) (n : Nat) (h : IsPermutation p n) :
    PermOn n (fun k => p[k]?.getD 0) := by
  obtain ⟨hl, hb, hn⟩ := h
  constructor
  · intro k hk
    show p[k]?.getD 0 < n
    rw [List.getElem?_eq_getElem (show k < p.length by omega)]
    exact hb _ (List.getElem_mem _)
  · intro j k hj hk he
    simp only [List.getElem?_eq_getElem (by omega : j < p.length),
      List.getElem?_eq_getElem (by omega : k < p.length), Option.getD_some] at he
    exact (List.Nodup.getElem_inj_iff hn).1 he

theorem moved_le (n : Nat) (f : Nat → Nat) : moved n f ≤ n := by
  unfold moved
  have := List.countP_le_length (p := fun k => decide (f k ≠ k)) (l := List.range n)
  simpa using this

theorem applyPermutationWith_ok {σ β : Type} (n : Nat) (good : σ → Prop) (view : σ → Nat → β)
    (swap : σ → Nat → Nat → Option σ) (hsw : SwapSpec n good view swap) (fuel : Nat)
    (hfuel : n ≤ fuel) (s : σ) (hs : good s) (p : List Nat) (hp : IsPermutation p n) :
    ∃ s', applyPermutationWith swap fuel s p = .ok (s', List.range n) ∧ good s' ∧
      (∀ j (hj : j < p.length), view s' j = view s p[j]) := by
  have hpo := permOn_of_isPermutation p n hp
  obtain ⟨s', ind', h1, h2, h3, h4⟩ := outer_ok n good view swap hsw fuel n 0 s p _ (by omega) hs hpo
    hp.1 (fun j hj => by rw [List.getElem?_eq_getElem (by have := hp.1; omega)]; simp)
    (by simp) (Nat.le_trans (moved_le _ _) hfuel)
  subst h3
  refine ⟨s', ?_, h2, fun j hj => ?_⟩
  · rw [applyPermutationWith, hp.1]; exact h1
  · have := h4 j (by have := hp.1; omega)
    rw [this]; simp [List.getElem?_eq_getElem hj]

theorem swapList_spec {α : Type} (n : Nat) :
    SwapSpec n (fun v : List α => v.length = n) (fun v k => v[k]?) swapList := by
  intro v i j hv hi hj
  have e1 : v[i]? = some (v[i]'(by omega)) := List.getElem?_eq_getElem (by omega)
  have e2 : v[j]? = some (v[j]'(by omega)) := List.getElem?_eq_getElem (by omega)
  refine ⟨(v.set i (v[j]'(by omega))).set j (v[i]'(by omega)), by simp only [swapList, e1, e2],
    by simpa using hv, ?_⟩
  intro k hk
  simp only [List.getElem?_set, List.length_set, sw]
  by_cases h1 : k = i
  · subst h1
    by_cases h2 : j = k
    · subst h2; simp [hv, hj]
    · simp [h2, hv, hk, e2]
  · by_cases h2 : k = j
    · subst h2; simp [h1, hv, hk, e1]
    · simp [h1, h2, Ne.symm h1, Ne.symm h2]

theorem filterMap_getElem? {α β : Type} (f : α → Option β) (p : List α)
    (h : ∀ x ∈ p, (f x).isSome) (i : Nat) : (p.filterMap f)[i]? = p[i]?.bind f := by
  induction p generalizing i with
  | nil => simp
  | cons x p ih =>
    obtain ⟨y, hy⟩ := Option.isSome_iff_exists.1 (h x (by simp))
    rw [List.filterMap_cons_some hy]
    cases i with
    | zero => simp [hy]
    | succ i => simpa using ih (fun x hx => h x (by simp [hx])) i

theorem filterMap_range_getElem? {α : Type} (v : List α) :
    (List.range v.length).filterMap (fun k => v[k]?) = v := by
  apply List.ext_getElem?
  intro i
  rw [filterMap_getElem? _ _ (by intro x hx; simpa using hx)]
  by_cases hi : i < v.length
  · simp [List.getElem?_range hi]
  · rw [List.getElem?_eq_none (by simp; omega), List.getElem?_eq_none (by omega)]; rfl

theorem perm_range_of_isPermutation (p : List Nat) (n : Nat) (hp : IsPermutation p n) :
    p.Perm (List.range n) := by
  have hsub : p ⊆ List.range n := fun x hx => by simpa using hp.2.1 x hx
  exact (List.subperm_of_subset hp.2.2 hsub).perm_of_length_le (by simp [hp.1])

theorem findBlocks_foldl (l : List Int) (acc : List (Int × Int)) (hacc : ∀ b ∈ acc, 1 ≤ b.2)
    (hadj : ∀ k (h : k + 1 < acc.length), acc[k].1 ≠ acc[k + 1].1 + acc[k + 1].2) :
    (((l.foldl findBlocksStep acc).reverse.flatMap blockIndices) =
        acc.reverse.flatMap blockIndices ++ l) ∧
      (∀ b ∈ l.foldl findBlocksStep acc, 1 ≤ b.2) ∧
      (∀ k (h : k + 1 < (l.foldl findBlocksStep acc).length),
        (l.foldl findBlocksStep acc)[k].1 ≠
          (l.foldl findBlocksStep acc)[k + 1].1 + (l.foldl findBlocksStep acc)[k + 1].2) := by
  induction l generalizing acc with
  | nil => exact ⟨by simp, hacc, hadj⟩
  | cons x l ih =>
    have hstep : (∀ b ∈ findBlocksStep acc x, 1 ≤ b.2) ∧
        (∀ k (h : k + 1 < (findBlocksStep acc x).length), (findBlocksStep acc x)[k].1 ≠
          (findBlocksStep acc x)[k + 1].1 + (findBlocksStep acc x)[k + 1].2) ∧
        (findBlocksStep acc x).reverse.flatMap blockIndices =
          acc.reverse.flatMap blockIndices ++ [x] := by
      cases acc with
      | nil => simp [findBlocksStep, blockIndices]
      | cons b rest =>
        obtain ⟨disp, len⟩ := b
        have hlen : 1 ≤ len := hacc (disp, len) (by simp)
        unfold findBlocksStep
        by_cases hc : x - disp = len
        · simp only [if_pos hc]
          refine ⟨?_, ?_, ?_⟩
          · intro b hb
            rcases List.mem_cons.1 hb with h | h
            · subst h; simp; omega
            · exact hacc b (by simp [h])
          · intro k hk
            cases k with
            | zero => exact hadj 0 (by simpa using hk)
            | succ k => exact hadj (k + 1) (by simpa using hk)
          · have : (len + 1).toNat = len.toNat + 1 := by omega
            simp only [List.reverse_cons, List.flatMap_append, List.flatMap_cons, List.flatMap_nil,
              List.append_nil, List.append_assoc, blockIndices, this, List.range_succ,
              List.map_append, List.map_cons, List.map_nil]
            congr 3
            omega
        · simp only [if_neg hc]
          refine ⟨?_, ?_, ?_⟩
          · intro b hb
            rcases List.mem_cons.1 hb with h | h
            · subst h; simp
            · exact hacc b h
          · intro k hk
            cases k with
            | zero => simp only [List.getElem_cons_zero, List.getElem_cons_succ]; omega
            | succ k => exact hadj k (by simpa using hk)
          · simp [blockIndices]
    obtain ⟨h1, h2, h3⟩ := hstep
    have := ih (findBlocksStep acc x) h1 h2
    refine ⟨?_, this.2⟩
    rw [List.foldl_cons, this.1, h3]
    simp

end Tandem.Algorithm
