import Verif.Spec.GMSHLexer
namespace Tandem.GMSHLexer
open Tandem.Hash Tandem.Spec

/-- The current character and the ones to come. -/
def view (s : St) : List Char := s.last :: s.rest

theorem advance_rest (s : St) : (advance s).rest = s.rest.tail := by
  unfold advance get
  cases h : s.rest <;> simp only [] <;> split <;> simp

theorem advance_last (s : St) : (advance s).last = s.rest.headD s.last := by
  unfold advance get
  cases h : s.rest <;> simp only [] <;> split <;> simp

theorem advance_bad (s : St) : (advance s).bad = (s.bad || s.rest.isEmpty) := by
  unfold advance get
  cases h : s.rest <;> simp only [] <;> split <;> simp

/-- A non-final `advance`. -/
theorem advance_view {s : St} {a b : Char} {r : List Char} (h : view s = a :: b :: r) :
    view (advance s) = b :: r ∧ (advance s).bad = s.bad := by
  simp only [view, List.cons.injEq] at h
  constructor
  · simp [view, advance_rest, advance_last, h.2]
  · simp [advance_bad, h.2]

theorem advance_view_end {s : St} {a : Char} (h : view s = [a]) :
    view (advance s) = [a] ∧ (advance s).bad = true := by
  simp only [view, List.cons.injEq] at h
  constructor
  · simp [view, advance_rest, advance_last, h.2, h.1]
  · simp [advance_bad, h.2]

theorem view_advance_sub (s : St) : ∀ c ∈ view (advance s), c ∈ view s := by
  intro c hc
  rcases hr : s.rest with _ | ⟨b, r⟩
  · have := (advance_view_end (s := s) (a := s.last) (by simp [view, hr])).1
    rw [this] at hc; simp [view] at hc ⊢; left; exact hc
  · have := (advance_view (s := s) (a := s.last) (b := b) (r := r) (by simp [view, hr])).1
    rw [this] at hc
    simp only [view, hr, List.mem_cons] at hc ⊢; right; exact hc

/-! ## skipSpace -/

theorem skipSpace_hang (fuel : Nat) : ∀ s, (∀ c ∈ view s, isSpace c = true) →
    skipSpace fuel s = none := by
  induction fuel with
  | zero => intro s _; rfl
  | succ f ih =>
    intro s h
    have : isSpace s.last = true := h _ (by simp [view])
    simp only [skipSpace, this, if_true]
    exact ih _ (fun c hc => h c (view_advance_sub s c hc))

theorem skipSpace_ok : ∀ (sp : List Char) (s : St) (x : Char) (r : List Char) (fuel : Nat),
    view s = sp ++ x :: r → (∀ c ∈ sp, isSpace c = true) → isSpace x = false → s.bad = false →
    sp.length < fuel → ∃ s', skipSpace fuel s = some s' ∧ view s' = x :: r ∧ s'.bad = false := by
  intro sp
  induction sp with
  | nil =>
    intro s x r fuel hv _ hx hb hf
    obtain ⟨f, rfl⟩ : ∃ f, fuel = f + 1 := ⟨fuel - 1, by simp at hf; omega⟩
    have : s.last = x := by simp [view] at hv; exact hv.1
    exact ⟨s, by simp [skipSpace, this, hx], by simpa using hv, hb⟩
  | cons a sp ih =>
    intro s x r fuel hv hsp hx hb hf
    obtain ⟨f, rfl⟩ : ∃ f, fuel = f + 1 := ⟨fuel - 1, by simp at hf; omega⟩
    have hl : s.last = a := by simp [view] at hv; exact hv.1
    have ha : isSpace a = true := hsp a (by simp)
    obtain ⟨b, t, hbt⟩ : ∃ b t, sp ++ x :: r = b :: t := by
      cases h : sp ++ x :: r with
      | nil => simp at h
      | cons b t => exact ⟨b, t, rfl⟩
    obtain ⟨h1, h2⟩ := advance_view (s := s) (a := a) (b := b) (r := t) (by rw [hv, List.cons_append, hbt])
    obtain ⟨s', h3, h4, h5⟩ := ih (advance s) x r f (by rw [h1, hbt])
      (fun c hc => hsp c (by simp [hc])) hx (by rw [h2, hb]) (by simp at hf; omega)
    exact ⟨s', by simp [skipSpace, hl, ha, h3], h4, h5⟩

/-! ## ident -/

theorem ident_hang (fuel : Nat) : ∀ s h, (∀ c ∈ view s, isAlpha c = true) →
    ident fuel s h = none := by
  induction fuel with
  | zero => intro s h _; rfl
  | succ f ih =>
    intro s h hv
    have : isAlpha s.last = true := hv _ (by simp [view])
    simp only [ident, this, if_true]
    exact ih _ _ (fun c hc => hv c (view_advance_sub s c hc))

theorem ident_ok : ∀ (nm : List Char) (s : St) (x : Char) (r : List Char) (fuel : Nat)
    (h : BitVec 64), view s = nm ++ x :: r → (∀ c ∈ nm, isAlpha c = true) → isAlpha x = false →
    s.bad = false → nm.length < fuel →
    ∃ s', ident fuel s h = some (s', (nm.map byte).foldl fnv1aStep h) ∧ view s' = x :: r ∧
      s'.bad = false := by
  intro nm
  induction nm with
  | nil =>
    intro s x r fuel h hv _ hx hb hf
    obtain ⟨f, rfl⟩ : ∃ f, fuel = f + 1 := ⟨fuel - 1, by simp at hf; omega⟩
    have : s.last = x := by simp [view] at hv; exact hv.1
    exact ⟨s, by simp [ident, this, hx], by simpa using hv, hb⟩
  | cons a nm ih =>
    intro s x r fuel h hv hsp hx hb hf
    obtain ⟨f, rfl⟩ : ∃ f, fuel = f + 1 := ⟨fuel - 1, by simp at hf; omega⟩
    have hl : s.last = a := by simp [view] at hv; exact hv.1
    have ha : isAlpha a = true := hsp a (by simp)
    obtain ⟨b, t, hbt⟩ : ∃ b t, nm ++ x :: r = b :: t := by
      cases h : nm ++ x :: r with
      | nil => simp at h
      | cons b t => exact ⟨b, t, rfl⟩
    obtain ⟨h1, h2⟩ := advance_view (s := s) (a := a) (b := b) (r := t) (by rw [hv, List.cons_append, hbt])
    obtain ⟨s', h3, h4, h5⟩ := ih (advance s) x r f (fnv1aStep h (byte a)) (by rw [h1, hbt])
      (fun c hc => hsp c (by simp [hc])) hx (by rw [h2, hb]) (by simp at hf; omega)
    exact ⟨s', by simp [ident, hl, ha, h3], h4, h5⟩

/-! ## quoted -/

theorem quoted_hang (fuel : Nat) : ∀ s, s.rest ≠ [] ∨ s.last ≠ '"' → '"' ∉ s.rest →
    quoted fuel s = none := by
  induction fuel with
  | zero => intro s _ _; rfl
  | succ f ih =>
    intro s h hv
    have hlast : (advance s).last ≠ '"' := by
      rw [advance_last]
      cases hr : s.rest with
      | nil => rw [hr] at h; simpa using h
      | cons b r => rw [hr] at hv; simp only [List.headD_cons]; intro hb; subst hb; simp at hv
    simp only [quoted, if_neg hlast]
    refine ih _ (Or.inr hlast) ?_
    rw [advance_rest]
    exact fun hm => hv (List.mem_of_mem_tail hm)

theorem quoted_ok : ∀ (body : List Char) (s : St) (r : List Char) (fuel : Nat),
    s.rest = body ++ '"' :: r → '"' ∉ body → s.bad = false → body.length < fuel →
    ∃ s', quoted fuel s = some s' ∧ view s' = '"' :: r ∧ s'.bad = false := by
  intro body
  induction body with
  | nil =>
    intro s r fuel hv _ hb hf
    obtain ⟨f, rfl⟩ : ∃ f, fuel = f + 1 := ⟨fuel - 1, by simp at hf; omega⟩
    obtain ⟨h1, h2⟩ := advance_view (s := s) (a := s.last) (b := '"') (r := r) (by simp [view, hv])
    have : (advance s).last = '"' := by simp [view] at h1; exact h1.1
    exact ⟨advance s, by simp [quoted, this], h1, by rw [h2, hb]⟩
  | cons a body ih =>
    intro s r fuel hv hq hb hf
    obtain ⟨f, rfl⟩ : ∃ f, fuel = f + 1 := ⟨fuel - 1, by simp at hf; omega⟩
    obtain ⟨h1, h2⟩ := advance_view (s := s) (a := s.last) (b := a) (r := body ++ '"' :: r)
      (by simp [view, hv])
    simp only [view, List.cons.injEq] at h1
    have ha : (advance s).last ≠ '"' := by rw [h1.1]; intro h; subst h; simp at hq
    obtain ⟨s', h3, h4, h5⟩ := ih (advance s) r f h1.2 (by simp at hq; exact hq.2)
      (by rw [h2, hb]) (by simp at hf; omega)
    exact ⟨s', by simp [quoted, ha, h3], h4, h5⟩

/-! ## number -/

theorem number_ok : ∀ (t : List Char) (s : St) (x : Char) (r : List Char) (room : Nat) (acc : List Char),
    t ≠ [] → view s = t ++ x :: r → (∀ c ∈ t, isNumber c = true) → isNumber x = false →
    s.bad = false → t.length < room →
    ∃ s', number room s acc = (s', t.reverse ++ acc) ∧ view s' = x :: r ∧ s'.bad = false := by
  intro t
  induction t with
  | nil => intro _ _ _ _ _ h; exact absurd rfl h
  | cons a t ih =>
    intro s x r room acc _ hv ht hx hb hf
    obtain ⟨f, rfl⟩ : ∃ f, room = f + 1 := ⟨room - 1, by simp at hf; omega⟩
    have hl : s.last = a := by simp [view] at hv; exact hv.1
    cases t with
    | nil =>
      obtain ⟨h1, h2⟩ := advance_view (s := s) (a := a) (b := x) (r := r) (by simpa using hv)
      have : (advance s).last = x := by simp [view] at h1; exact h1.1
      exact ⟨advance s, by simp [number, this, hx, hl], h1, by rw [h2, hb]⟩
    | cons b t =>
      obtain ⟨h1, h2⟩ := advance_view (s := s) (a := a) (b := b) (r := t ++ x :: r) (by simpa using hv)
      have hb' : (advance s).last = b := by simp [view] at h1; exact h1.1
      obtain ⟨s', h3, h4, h5⟩ := ih (advance s) x r f (a :: acc) (by simp) (by simpa using h1)
        (fun c hc => ht c (by simp at hc ⊢; right; exact hc)) hx (by rw [h2, hb])
        (by simp at hf ⊢; omega)
      refine ⟨s', ?_, h4, h5⟩
      have hfp : 0 < f := by simp at hf; omega
      have hnb : isNumber b = true := ht b (by simp)
      simp [number, hb', hnb, hfp, hl, h3]

theorem number_full : ∀ (room : Nat) (s : St) (acc : List Char), (∀ c ∈ view s, isNumber c = true) →
    (number room s acc).2.length = room + acc.length := by
  intro room
  induction room with
  | zero => intro s acc _; simp [number]
  | succ f ih =>
    intro s acc hv
    have hn : isNumber (advance s).last = true :=
      hv _ (view_advance_sub s _ (by simp [view]))
    by_cases hf : 0 < f
    · simp only [number, hn, hf, decide_true, Bool.and_self, if_true]
      rw [ih _ _ (fun c hc => hv c (view_advance_sub s c hc))]; simp; omega
    · have : f = 0 := by omega
      subst this
      simp [number]; omega

theorem number_rest_le : ∀ (room : Nat) (s : St) (acc : List Char),
    (number room s acc).1.rest.length ≤ s.rest.length := by
  intro room
  induction room with
  | zero => intro s acc; simp [number]
  | succ f ih =>
    intro s acc
    simp only [number]
    split
    · refine Nat.le_trans (ih _ _) ?_
      rw [advance_rest]; simp
    · simp only [advance_rest]; simp

/-! ## results do not depend on the fuel -/

theorem skipSpace_det : ∀ (k : Nat) (s s' : St), skipSpace k s = some s' →
    ∀ K, k ≤ K → skipSpace K s = some s' := by
  intro k
  induction k with
  | zero => intro s s' h; simp [skipSpace] at h
  | succ k ih =>
    intro s s' h K hK
    obtain ⟨K, rfl⟩ : ∃ m, K = m + 1 := ⟨K - 1, by omega⟩
    simp only [skipSpace] at h ⊢
    split
    · rename_i hs; rw [if_pos hs] at h; exact ih _ _ h K (by omega)
    · rename_i hs; rw [if_neg hs] at h; exact h

theorem ident_det : ∀ (k : Nat) (s : St) (h : BitVec 64) r, ident k s h = some r →
    ∀ K, k ≤ K → ident K s h = some r := by
  intro k
  induction k with
  | zero => intro s h r hh; simp [ident] at hh
  | succ k ih =>
    intro s h r hh K hK
    obtain ⟨K, rfl⟩ : ∃ m, K = m + 1 := ⟨K - 1, by omega⟩
    simp only [ident] at hh ⊢
    split
    · rename_i hs; rw [if_pos hs] at hh; exact ih _ _ _ hh K (by omega)
    · rename_i hs; rw [if_neg hs] at hh; exact hh

theorem quoted_det : ∀ (k : Nat) (s : St) r, quoted k s = some r →
    ∀ K, k ≤ K → quoted K s = some r := by
  intro k
  induction k with
  | zero => intro s r hh; simp [quoted] at hh
  | succ k ih =>
    intro s r hh K hK
    obtain ⟨K, rfl⟩ : ∃ m, K = m + 1 := ⟨K - 1, by omega⟩
    simp only [quoted] at hh ⊢
    split
    · rename_i hs; rw [if_pos hs] at hh; exact hh
    · rename_i hs; rw [if_neg hs] at hh; exact ih _ _ hh K (by omega)

theorem getToken_mono (k K : Nat) (s : St) (h : getToken k s ≠ .outOfFuel) (hK : k ≤ K) :
    getToken K s = getToken k s := by
  unfold getToken at h ⊢
  split
  · rfl
  · rename_i h0
    rw [if_neg h0] at h
    cases hs : skipSpace k s with
    | none => simp [hs] at h
    | some s1 =>
      rw [skipSpace_det k s s1 hs K hK]
      simp only [hs] at h ⊢
      by_cases hd : s1.last = '$'
      · simp only [hd, if_true] at h ⊢
        cases hi : ident k (advance s1) fnv1a0 with
        | none => simp [hi] at h
        | some r => rw [ident_det _ _ _ _ hi K hK]
      · simp only [hd, if_false] at h ⊢
        by_cases hn : isNumber s1.last = true
        · simp only [hn, if_true]
        · simp only [hn] at h ⊢
          by_cases hq : s1.last = '"'
          · simp only [hq, if_true] at h ⊢
            cases hi : quoted k s1 with
            | none => simp [hi] at h
            | some r => rw [quoted_det _ _ _ hi K hK]
          · simp only [hq, if_false]

theorem getToken_det (k K : Nat) (s : St) (h : getToken k s ≠ .outOfFuel)
    (h' : getToken K s ≠ .outOfFuel) : getToken k s = getToken K s := by
  rcases Nat.le_total k K with hk | hk
  · exact (getToken_mono k K s h hk).symm
  · exact getToken_mono K k s h' hk

theorem skipSpace_rest_le : ∀ (k : Nat) (s s' : St), skipSpace k s = some s' →
    s'.rest.length ≤ s.rest.length := by
  intro k
  induction k with
  | zero => intro s s' h; simp [skipSpace] at h
  | succ k ih =>
    intro s s' h
    simp only [skipSpace] at h
    split at h
    · refine Nat.le_trans (ih _ _ h) ?_
      rw [advance_rest]; simp
    · simp at h; rw [h]; exact Nat.le_refl _

theorem skipSpace_last : ∀ (k : Nat) (s s' : St), skipSpace k s = some s' →
    isSpace s'.last = false := by
  intro k
  induction k with
  | zero => intro s s' h; simp [skipSpace] at h
  | succ k ih =>
    intro s s' h
    simp only [skipSpace] at h
    split at h
    · exact ih _ _ h
    · rename_i hh; simp at h; rw [← h]; simpa using hh

theorem ident_rest_le : ∀ (k : Nat) (s : St) (h : BitVec 64) r, ident k s h = some r →
    r.1.rest.length ≤ s.rest.length ∧ (s.bad = true → r.1.bad = true) := by
  intro k
  induction k with
  | zero => intro s h r hh; simp [ident] at hh
  | succ k ih =>
    intro s h r hh
    simp only [ident] at hh
    split at hh
    · obtain ⟨h1, h2⟩ := ih _ _ _ hh
      refine ⟨Nat.le_trans h1 ?_, ?_⟩
      · rw [advance_rest]; simp
      · intro hb; apply h2; rw [advance_bad, hb]; rfl
    · simp at hh; rw [← hh]; exact ⟨Nat.le_refl _, id⟩

theorem quoted_rest_le : ∀ (k : Nat) (s : St) r, quoted k s = some r →
    (r.rest.length < s.rest.length ∨ r.bad = true) := by
  intro k
  induction k with
  | zero => intro s r hh; simp [quoted] at hh
  | succ k ih =>
    intro s r hh
    simp only [quoted] at hh
    have h0 : (advance s).rest.length < s.rest.length ∨ (advance s).bad = true := by
      rw [advance_rest, advance_bad]
      cases s.rest with
      | nil => right; simp
      | cons => left; simp
    split at hh
    · simp at hh; rw [← hh]; exact h0
    · have h1 : (advance s).rest.length ≤ s.rest.length := by rw [advance_rest]; simp
      rcases ih _ _ hh with h | h
      · left; omega
      · right; exact h

theorem number_progress (room : Nat) (s : St) (acc : List Char) :
    (number (room + 1) s acc).1.rest.length < s.rest.length ∨ (number (room + 1) s acc).1.bad = true := by
  have hbad : ∀ room s acc, s.bad = true → (number room s acc).1.bad = true := by
    intro room
    induction room with
    | zero => intro s acc h; simpa [number] using h
    | succ f ih =>
      intro s acc h
      have : (advance s).bad = true := by rw [advance_bad, h]; rfl
      simp only [number]
      split
      · exact ih _ _ this
      · exact this
  have h0 : (advance s).rest.length < s.rest.length ∨ (advance s).bad = true := by
    rw [advance_rest, advance_bad]
    cases s.rest with
    | nil => right; simp
    | cons => left; simp
  simp only [number]
  split
  · rcases h0 with h | h
    · left; exact Nat.lt_of_le_of_lt (number_rest_le _ _ _) h
    · right; exact hbad _ _ _ h
  · exact h0

theorem progress_aux (fuel : Nat) (s s' : St) (t : Tok) (h : getToken fuel s = .tok t s')
    (h1 : t ≠ .eof) (h2 : t ≠ .unknownToken) : s'.rest.length < s.rest.length ∨ s'.bad = true := by
  unfold getToken at h
  split at h
  · simp only [Res.tok.injEq] at h; exact absurd h.1.symm h1
  cases hs : skipSpace fuel s with
  | none => simp [hs] at h
  | some s1 =>
    have hle := skipSpace_rest_le _ _ _ hs
    simp only [hs] at h
    split at h
    · have h0 : (advance s1).rest.length < s1.rest.length ∨ (advance s1).bad = true := by
        rw [advance_rest, advance_bad]
        cases s1.rest with
        | nil => right; simp
        | cons => left; simp
      cases hi : ident fuel (advance s1) fnv1a0 with
      | none => simp [hi] at h
      | some r =>
        obtain ⟨r1, r2⟩ := r
        obtain ⟨h3, h4⟩ := ident_rest_le _ _ _ _ hi
        simp only [hi, Res.tok.injEq] at h
        obtain ⟨_, rfl⟩ := h
        rcases h0 with h0 | h0
        · left; simp only at h3; omega
        · right; exact h4 h0
    · split at h
      · have := number_progress 127 s1 []
        simp only [show (127 + 1) = maxNumberLength from rfl] at this
        split at h
        · simp at h
        · split at h <;> (simp only [Res.tok.injEq] at h; obtain ⟨_, rfl⟩ := h; rcases this with h | h; (left; omega); (right; exact h))
      · split at h
        · cases hi : quoted fuel s1 with
          | none => simp [hi] at h
          | some r =>
            simp only [hi, Res.tok.injEq] at h
            obtain ⟨_, rfl⟩ := h
            have h3 : (advance r).rest.length ≤ r.rest.length := by rw [advance_rest]; simp
            rcases quoted_rest_le _ _ _ hi with h | h
            · left; omega
            · right; rw [advance_bad, h]; rfl
        · simp only [Res.tok.injEq] at h; exact absurd h.1.symm h2

theorem unknown_stuck (fuel : Nat) (s s' : St) (h : getToken fuel s = .tok .unknownToken s')
    (hr : s'.rest ≠ []) (hb : s'.bad = false) :
    (∀ k, 0 < k → getToken k s' = .tok .unknownToken s') ∧
    (∀ k n l, lexAll k n s' ≠ .toks l) := by
  have hne : (s'.bad || s'.rest.isEmpty) = false := by rw [hb]; simpa using hr
  have hcls : isSpace s'.last = false ∧ s'.last ≠ '$' ∧ isNumber s'.last = false ∧ s'.last ≠ '"' := by
    unfold getToken at h
    split at h
    · simp at h
    cases hs : skipSpace fuel s with
    | none => simp [hs] at h
    | some s1 =>
      have hle := skipSpace_last _ _ _ hs
      simp only [hs] at h
      split at h
      · exfalso
        split at h
        · simp at h
        · simp only [Res.tok.injEq] at h
          have h' := h.1
          unfold dispatch at h'
          split at h'
          · rename_i kw hk
            have := List.mem_of_find?_eq_some hk
            exact (by decide : ∀ kw ∈ keywords, kw.2 ≠ .unknownToken) kw this h'
          · simp at h'
      · rename_i hd
        split at h
        · exfalso
          split at h
          · simp at h
          · split at h <;> simp at h
        · rename_i hn
          split at h
          · exfalso; split at h <;> simp at h
          · rename_i hq
            simp only [Res.tok.injEq, true_and] at h
            subst h
            exact ⟨hle, hd, by simpa using hn, hq⟩
  have key : ∀ k, 0 < k → getToken k s' = .tok .unknownToken s' := by
    intro k hk
    obtain ⟨k, rfl⟩ : ∃ m, k = m + 1 := ⟨k - 1, by omega⟩
    simp [getToken, hne, skipSpace, hcls]
  refine ⟨key, ?_⟩
  intro k n
  induction n with
  | zero => intro l; simp [lexAll]
  | succ n ih =>
    intro l
    by_cases hk : 0 < k
    · simp only [lexAll, key k hk]
      cases hl : lexAll k n s' with
      | toks l' => exact absurd hl (ih l')
      | throw => simp
      | outOfFuel => simp
    · have : k = 0 := by omega
      subst this
      simp [lexAll, getToken, hne, skipSpace]

/-- `lexAll` does not succeed if the tokens after the first one do not. -/
theorem lexAll_ne_step {s s' : St} {t : Tok} (K : Nat) (h : getToken K s = .tok t s') (ht : t ≠ .eof)
    (hs : ∀ k n l, lexAll k n s' ≠ .toks l) : ∀ k n l, lexAll k n s ≠ .toks l := by
  intro k n l
  cases n with
  | zero => simp [lexAll]
  | succ n =>
    by_cases hk : getToken k s = .outOfFuel
    · simp [lexAll, hk]
    · have : getToken k s = .tok t s' := by rw [getToken_det k K s hk (by rw [h]; simp), h]
      have e : lexAll k (n + 1) s = match lexAll k n s' with
          | .toks l => .toks (t :: l)
          | r => r := by
        rw [lexAll, this]
        cases t <;> first | rfl | exact absurd rfl ht
      rw [e]
      cases hl : lexAll k n s' with
      | toks l' => exact absurd hl (hs k n l')
      | throw => simp
      | outOfFuel => simp

theorem lexAll_ne_hang {s : St} (h : ∀ k, getToken k s = .outOfFuel) :
    ∀ k n l, lexAll k n s ≠ .toks l := by
  intro k n l
  cases n with
  | zero => simp [lexAll]
  | succ n => simp [lexAll, h]

end Tandem.GMSHLexer
