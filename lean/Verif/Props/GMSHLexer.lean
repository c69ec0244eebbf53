import Verif.Lemmas.GMSHLexer
import Mathlib.Tactic.Push
import Mathlib.Order.Basic
/-!
# Property C34: the GMSH lexer

The full claim ("reaches end-of-file after finitely many calls on every byte stream") is false of the
code; `C34_getToken_hangs_iff` says exactly when a call never returns, `C34_unknown_token_stuck` when
repeated calls never reach end-of-file, and `C34_roundtrip_partial` proves termination and
correctness on well-terminated streams.
-/
namespace Tandem.GMSHLexer
open Tandem.Hash Tandem.Spec

theorem isSpace_dollar : isSpace '$' = false := by decide
theorem isSpace_quote : isSpace '"' = false := by decide

theorem class_disjoint (c : Char) (h : isSpace c = true) :
    isAlpha c = false ∧ isNumber c = false ∧ c ≠ '$' ∧ c ≠ '"' := by
  simp only [isSpace, Bool.or_eq_true, decide_eq_true_eq] at h
  rcases h with ((((h | h) | h) | h) | h) | h <;> subst h <;> decide

theorem isNumber_ne (c : Char) (h : isNumber c = true) : isSpace c = false ∧ c ≠ '$' := by
  constructor
  · cases hs : isSpace c with
    | false => rfl
    | true => rw [(class_disjoint c hs).2.1] at h; exact absurd h (by decide)
  · rintro rfl; exact absurd h (by decide)

/-- One well-delimited token. -/
theorem getToken_token (p : PTok) (hp : p.Ok) (s : St) (hb : s.bad = false) (sp : List Char)
    (hsp : ∀ c ∈ sp, isSpace c = true) (x : Char) (hx : isSpace x = true) (r : List Char)
    (hv : view s = sp ++ (p.text ++ x :: r)) (fuel : Nat) (hf : (view s).length < fuel) :
    ∃ s', getToken fuel s = .tok p.meaning s' ∧ view s' = x :: r ∧ s'.bad = false := by
  obtain ⟨hxa, hxn, _, _⟩ := class_disjoint x hx
  have hlen : (view s).length = sp.length + (p.text.length + (r.length + 1)) := by
    rw [hv]; simp
  have hrest : s.rest.isEmpty = false := by
    cases hr : s.rest with
    | nil =>
      have h1 : (view s).length = 1 := by simp [view, hr]
      have h2 : 0 < p.text.length := by
        cases p with
        | sect n => simp [PTok.text]
        | num t => simp [PTok.text, PTok.Ok] at hp ⊢; exact List.length_pos_iff.2 hp.1
        | str c => simp [PTok.text]
      omega
    | cons => rfl
  have hne : (s.bad || s.rest.isEmpty) = false := by rw [hb, hrest]; rfl
  cases p with
  | sect n =>
    simp only [PTok.text, List.cons_append] at hv hlen
    obtain ⟨s1, h1, h2, h3⟩ := skipSpace_ok sp s '$' (n ++ x :: r) fuel hv hsp isSpace_dollar hb
      (by omega)
    have hl1 : s1.last = '$' := by simp [view] at h2; exact h2.1
    obtain ⟨b, t, hbt⟩ : ∃ b t, n ++ x :: r = b :: t := by
      cases h : n ++ x :: r with
      | nil => simp at h
      | cons b t => exact ⟨b, t, rfl⟩
    obtain ⟨h4, h5⟩ := advance_view (s := s1) (a := '$') (b := b) (r := t) (by rw [h2, hbt])
    obtain ⟨s2, h6, h7, h8⟩ := ident_ok n (advance s1) x r fuel fnv1a0 (by rw [h4, hbt]) hp hxa
      (by rw [h5, h3]) (by simp at hlen; omega)
    refine ⟨s2, ?_, h7, h8⟩
    simp only [getToken, hne, h1, hl1, h6, PTok.meaning, running]
    simp
  | num t =>
    obtain ⟨ht0, htl, ht⟩ := hp
    simp only [PTok.text] at hv hlen
    obtain ⟨a, t', rfl⟩ := List.exists_cons_of_ne_nil ht0
    have ha := isNumber_ne a (ht a (by simp))
    obtain ⟨s1, h1, h2, h3⟩ := skipSpace_ok sp s a (t' ++ x :: r) fuel (by simpa using hv) hsp ha.1 hb
      (by omega)
    have hl1 : s1.last = a := by simp [view] at h2; exact h2.1
    obtain ⟨s2, h4, h5, h6⟩ := number_ok (a :: t') s1 x r maxNumberLength [] (by simp)
      (by simpa using h2) ht hxn h3 (by simpa [maxNumberLength] using htl)
    refine ⟨s2, ?_, h5, h6⟩
    have hl2 : ¬ (((a :: t').reverse ++ ([] : List Char)).length = maxNumberLength) := by
      simp [maxNumberLength] at htl ⊢; omega
    simp only [getToken, hne, h1, hl1, ha.2, if_false, ht a (by simp), if_true, h4, hl2,
      PTok.meaning, List.append_nil, List.reverse_reverse]
    by_cases hr : (a :: t').any mustBeReal = true
    · simp [hr]; simpa using hl2
    · simp [hr]; simpa using hl2
  | str c =>
    simp only [PTok.text, List.cons_append, List.append_assoc] at hv hlen
    simp only [List.length_cons, List.length_append, List.length_nil] at hlen
    obtain ⟨s1, h1, h2, h3⟩ := skipSpace_ok sp s '"' (c ++ '"' :: x :: r) fuel (by simpa using hv)
      hsp isSpace_quote hb (by omega)
    simp only [view, List.cons.injEq] at h2
    obtain ⟨s2, h4, h5, h6⟩ := quoted_ok c s1 (x :: r) fuel h2.2 hp h3 (by omega)
    obtain ⟨h7, h8⟩ := advance_view h5
    refine ⟨advance s2, ?_, h7, by rw [h8, h6]⟩
    have e1 : ('"' : Char) ≠ '$' := by decide
    have e2 : isNumber '"' = false := by decide
    simp [getToken, hne, h1, h2.1, e1, e2, h4, PTok.meaning]

theorem meaning_ne_eof (p : PTok) : p.meaning ≠ .eof := by
  cases p with
  | sect n =>
    simp only [PTok.meaning]
    unfold dispatch
    split
    · rename_i kw hk
      have := List.mem_of_find?_eq_some hk
      exact (by decide : ∀ kw ∈ keywords, kw.2 ≠ .eof) kw this
    · decide
  | num t => simp only [PTok.meaning]; split <;> simp
  | str c => simp [PTok.meaning]

theorem lexAll_cons {fuel n : Nat} {s s' : St} {t : Tok} (h : getToken fuel s = .tok t s')
    (ht : t ≠ .eof) : lexAll fuel (n + 1) s =
      match lexAll fuel n s' with
      | .toks l => .toks (t :: l)
      | r => r := by
  rw [lexAll, h]
  cases t <;> first | rfl | exact absurd rfl ht

theorem lexAll_layout (fuel : Nat) : ∀ (ts : List (PTok × List Char)) (s : St) (sp : List Char),
    ts ≠ [] → (∀ p ∈ ts, p.1.Ok) → SepOk ts → s.bad = false → (∀ c ∈ sp, isSpace c = true) →
    view s = sp ++ layout ts → (view s).length < fuel → ∀ n, ts.length < n →
    lexAll fuel n s = .toks (ts.map (fun p => p.1.meaning)) := by
  intro ts
  induction ts with
  | nil => intro _ _ h; exact absurd rfl h
  | cons p ts ih =>
    intro s sp _ hok hsep hb hsp hv hf n hn
    obtain ⟨m, rfl⟩ : ∃ m, n = m + 1 := ⟨n - 1, by simp at hn; omega⟩
    obtain ⟨tk, sep⟩ := p
    have hv' : view s = sp ++ (tk.text ++ (sep ++ layout ts)) := by
      rw [hv]; simp [layout]
    have hsx : ∃ x sep', sep = x :: sep' ∧ isSpace x = true ∧ (∀ c ∈ sep', isSpace c = true) ∧
        (ts = [] → sep' = []) ∧ (ts ≠ [] → SepOk ts) := by
      cases ts with
      | nil =>
        obtain ⟨c, h1, h2⟩ := hsep
        simp only at h1
        exact ⟨c, [], h1, h2, by simp, by simp, by simp⟩
      | cons q r =>
        obtain ⟨h1, h2, h3⟩ := hsep
        obtain ⟨x, sep', h4⟩ := List.exists_cons_of_ne_nil h1
        simp only at h2 h4
        subst h4
        exact ⟨x, sep', rfl, h2 x (by simp), fun c hc => h2 c (by simp [hc]), by simp, fun _ => h3⟩
    obtain ⟨x, sep', rfl, hx, hsep', hlast, hnext⟩ := hsx
    obtain ⟨s', h1, h2, h3⟩ := getToken_token tk (hok (tk, x :: sep') (by simp)) s hb sp hsp x hx
      (sep' ++ layout ts) (by rw [hv']; simp) fuel hf
    have hmono : (view s').length < fuel := by
      have := congrArg List.length h2
      have h' := congrArg List.length hv'
      simp at this h'; omega
    have hrest : lexAll fuel m s' = .toks (ts.map (fun p => p.1.meaning)) := by
      by_cases hts : ts = []
      · subst hts
        obtain rfl := hlast rfl
        simp [layout, view] at h2
        obtain ⟨k, rfl⟩ : ∃ k, m = k + 1 := ⟨m - 1, by simp at hn; omega⟩
        simp [lexAll, getToken, h2.2]
      · exact ih s' (x :: sep') hts (fun q hq => hok q (by simp [hq])) (hnext hts) h3
          (by intro c hc; rcases List.mem_cons.1 hc with h | h
              · rw [h]; exact hx
              · exact hsep' c h) (by rw [h2]; simp) hmono m (by simp at hn; omega)
    rw [lexAll_cons h1 (meaning_ne_eof tk), hrest]
    simp

/-- C34 (partial: well-terminated streams only): a stream consisting of printed tokens, separated
by arbitrary non-empty white space, after arbitrary leading white space, and ended by exactly one
white-space character, lexes to exactly those tokens and then end-of-file. -/
theorem C34_roundtrip_partial (lead : List Char) (hlead : ∀ c ∈ lead, isSpace c = true)
    (ts : List (PTok × List Char)) (hne : ts ≠ []) (hok : ∀ p ∈ ts, p.1.Ok) (hsep : SepOk ts)
    (fuel : Nat) (hf : (lead ++ layout ts).length + 1 < fuel) :
    lexAll fuel (ts.length + 1) (start (lead ++ layout ts)) =
      .toks (ts.map (fun p => p.1.meaning)) := by
  refine lexAll_layout fuel ts _ (' ' :: lead) hne hok hsep rfl ?_ rfl (by simpa [view, start] using hf)
    _ (by omega)
  intro c hc
  rcases List.mem_cons.1 hc with h | h
  · rw [h]; decide
  · exact hlead c h

/-- C34 (exact hang condition): on a stream that is not exhausted, `getToken` never returns exactly
when the unread text (including the look-ahead character) is only white space, or is white space and
a section name that runs into the end of the file, or is white space and a string that is never
closed. -/
theorem C34_getToken_hangs_iff (s : St) (hb : s.bad = false) (hr : s.rest ≠ []) :
    (∀ fuel, getToken fuel s = .outOfFuel) ↔
      (∀ c ∈ view s, isSpace c = true) ∨
      (∃ sp name, (∀ c ∈ sp, isSpace c = true) ∧ name ≠ [] ∧ (∀ c ∈ name, isAlpha c = true) ∧
        view s = sp ++ '$' :: name) ∨
      (∃ sp body, (∀ c ∈ sp, isSpace c = true) ∧ body ≠ [] ∧ '"' ∉ body ∧
        view s = sp ++ '"' :: body) := by
  have hne : (s.bad || s.rest.isEmpty) = false := by
    rw [hb]; simpa using hr
  by_cases hall : ∀ c ∈ view s, isSpace c = true
  · refine iff_of_true ?_ (Or.inl hall)
    intro fuel
    simp [getToken, hne, skipSpace_hang fuel s hall]
  -- split the view at the first non-space
  obtain ⟨sp, x, r, hv, hsp, hx⟩ : ∃ sp x r, view s = sp ++ x :: r ∧ (∀ c ∈ sp, isSpace c = true) ∧
      isSpace x = false := by
    generalize view s = l at hall
    clear hne hr hb
    induction l with
    | nil => simp at hall
    | cons a l ih =>
      by_cases ha : isSpace a = true
      · obtain ⟨sp, x, r, h1, h2, h3⟩ := ih (by
          intro h; apply hall; intro c hc
          rcases List.mem_cons.1 hc with h' | h'
          · rw [h']; exact ha
          · exact h c h')
        refine ⟨a :: sp, x, r, by rw [h1]; rfl, ?_, h3⟩
        intro c hc
        rcases List.mem_cons.1 hc with h' | h'
        · rw [h']; exact ha
        · exact h2 c h'
      · exact ⟨[], a, l, rfl, by simp, by simpa using ha⟩
  have hsk : ∀ fuel, (view s).length < fuel → ∃ s', skipSpace fuel s = some s' ∧ view s' = x :: r ∧
      s'.bad = false := by
    intro fuel hf
    refine skipSpace_ok sp s x r fuel hv hsp hx hb ?_
    rw [hv] at hf; simp at hf; omega
  have huniq : ∀ sp' y r', (∀ c ∈ sp', isSpace c = true) → isSpace y = false →
      view s = sp' ++ y :: r' → y = x ∧ r' = r := by
    intro sp' y r' h1 h2 h3
    rw [hv] at h3
    clear hsk hv hall
    induction sp generalizing sp' with
    | nil =>
      cases sp' with
      | nil => simp at h3; exact ⟨h3.1.symm, h3.2.symm⟩
      | cons a sp' =>
        simp at h3
        have := h1 a (by simp)
        rw [← h3.1, hx] at this; exact absurd this (by decide)
    | cons b sp ih =>
      cases sp' with
      | nil =>
        simp at h3
        have := hsp b (by simp)
        rw [h3.1, h2] at this; exact absurd this (by decide)
      | cons a sp' =>
        simp at h3
        exact ih (fun c hc => hsp c (by simp [hc])) sp' (fun c hc => h1 c (by simp [hc])) h3.2
  constructor
  · intro hh
    right
    have hF := hh ((view s).length + 1)
    obtain ⟨s1, h1, h2, h3⟩ := hsk ((view s).length + 1) (by omega)
    have hlen : r.length < (view s).length := by rw [hv]; simp; omega
    simp only [view, List.cons.injEq] at h2
    simp only [getToken, hne, h1, h2.1] at hF
    by_cases hxd : x = '$'
    · left
      subst hxd
      cases r with
      | nil =>
        exfalso
        have hv1 := advance_view_end (s := s1) (a := '$') (by simp [view, h2])
        have : (advance s1).last = '$' := by simp [view] at hv1; exact hv1.1.1
        have e : isAlpha '$' = false := by decide
        simp [ident, this, e] at hF
      | cons b t =>
        refine ⟨sp, b :: t, hsp, by simp, ?_, hv⟩
        apply Classical.byContradiction; intro hna
        obtain ⟨nm, y, t', h4, h5, h6⟩ : ∃ nm y t', b :: t = nm ++ y :: t' ∧
            (∀ c ∈ nm, isAlpha c = true) ∧ isAlpha y = false := by
          generalize b :: t = l at hna
          clear hF hlen h2 hv hsk huniq
          induction l with
          | nil => simp at hna
          | cons a l ih =>
            by_cases ha : isAlpha a = true
            · obtain ⟨sp, x, r, h1, h2, h3⟩ := ih (by
                intro h; apply hna; intro c hc
                rcases List.mem_cons.1 hc with h' | h'
                · rw [h']; exact ha
                · exact h c h')
              refine ⟨a :: sp, x, r, by rw [h1]; rfl, ?_, h3⟩
              intro c hc
              rcases List.mem_cons.1 hc with h' | h'
              · rw [h']; exact ha
              · exact h2 c h'
            · exact ⟨[], a, l, rfl, by simp, by simpa using ha⟩
        obtain ⟨h7, h8⟩ := advance_view (s := s1) (a := '$') (b := b) (r := t) (by simp [view, h2])
        obtain ⟨s2, h9, _, _⟩ := ident_ok nm (advance s1) y t' ((view s).length + 1) fnv1a0
          (by rw [h7, h4]) h5 h6 (by rw [h8, h3])
          (by have := congrArg List.length h4; simp at this hlen; omega)
        simp [h9] at hF
    · right
      rw [if_neg (by simp)] at hF
      simp only [hxd, if_false] at hF
      by_cases hxn : isNumber x = true
      · exfalso
        rw [if_pos hxn] at hF
        revert hF
        split
        · simp
        · split <;> simp
      · rw [if_neg hxn] at hF
        by_cases hxq : x = '"'
        · subst hxq
          cases r with
          | nil =>
            exfalso
            have hv1 := advance_view_end (s := s1) (a := '"') (by simp [view, h2])
            have : (advance s1).last = '"' := by simp [view] at hv1; exact hv1.1.1
            simp [quoted, this] at hF
          | cons b t =>
            refine ⟨sp, b :: t, hsp, by simp, ?_, hv⟩
            intro hq
            obtain ⟨body, t', h4, h5⟩ : ∃ body t', b :: t = body ++ '"' :: t' ∧ '"' ∉ body := by
              have := List.eq_append_cons_of_mem hq
              obtain ⟨u, v, h, h'⟩ := this
              exact ⟨u, v, h, h'⟩
            obtain ⟨s2, h9, _, _⟩ := quoted_ok body s1 t' ((view s).length + 1) (by rw [h2.2, h4]) h5 h3
              (by have := congrArg List.length h4; simp at this hlen; omega)
            simp [h9] at hF
        · exfalso
          simp [hxq] at hF
  · rintro (h | ⟨sp', name, h1, h2, h3, h4⟩ | ⟨sp', body, h1, h2, h3, h4⟩)
    · exact absurd h hall
    · obtain ⟨e1, e2⟩ := huniq sp' '$' name h1 isSpace_dollar h4
      intro fuel
      simp only [getToken, hne]
      cases hk : skipSpace fuel s with
      | none => simp
      | some s1 =>
        -- the result of skipSpace does not depend on the fuel
        have hs1 : view s1 = '$' :: name := by
          have := skipSpace_det fuel s s1 hk
          obtain ⟨s2, h5, h6, _⟩ := hsk ((view s).length + 1 + fuel) (by omega)
          have h7 := this ((view s).length + 1 + fuel) (by omega)
          rw [h7] at h5; rw [Option.some.inj h5, h6, e1, e2]
        have hl : s1.last = '$' := by simp [view] at hs1; exact hs1.1
        obtain ⟨b, t, rfl⟩ := List.exists_cons_of_ne_nil h2
        have hv1 := (advance_view hs1).1
        have := ident_hang fuel (advance s1) fnv1a0 (by rw [hv1]; exact h3)
        simp [hl, this]
    · obtain ⟨e1, e2⟩ := huniq sp' '"' body h1 isSpace_quote h4
      intro fuel
      simp only [getToken, hne]
      cases hk : skipSpace fuel s with
      | none => simp
      | some s1 =>
        have hs1 : view s1 = '"' :: body := by
          have := skipSpace_det fuel s s1 hk
          obtain ⟨s2, h5, h6, _⟩ := hsk ((view s).length + 1 + fuel) (by omega)
          have h7 := this ((view s).length + 1 + fuel) (by omega)
          rw [h7] at h5; rw [Option.some.inj h5, h6, e1, e2]
        simp only [view, List.cons.injEq] at hs1
        have e1 : ('"' : Char) ≠ '$' := by decide
        have e2 : isNumber '"' = false := by decide
        have := quoted_hang fuel s1 (Or.inl (by rw [hs1.2]; exact h2)) (by rw [hs1.2]; exact h3)
        simp [hs1.1, e1, e2, this]

/-- C34 (progress): a token that is neither end-of-file nor "unknown token" consumes input, or the
stream is exhausted afterwards. -/
theorem C34_progress (fuel : Nat) (s s' : St) (t : Tok) (h : getToken fuel s = .tok t s')
    (h1 : t ≠ .eof) (h2 : t ≠ .unknownToken) : s'.rest.length < s.rest.length ∨ s'.bad = true := by
  exact progress_aux fuel s s' t h h1 h2

/-- C34 (defect): an unknown character is never consumed: from then on every call returns
"unknown token" and end-of-file is never reached, unless that character was the last one. -/
theorem C34_unknown_token_stuck (fuel : Nat) (s s' : St) (h : getToken fuel s = .tok .unknownToken s')
    (hr : s'.rest ≠ []) (hb : s'.bad = false) :
    (∀ k, 0 < k → getToken k s' = .tok .unknownToken s') ∧
    (∀ k n l, lexAll k n s' ≠ .toks l) := by
  exact unknown_stuck fuel s s' h hr hb

theorem stuck_never {s : St} (h : Stuck s) (k n : Nat) : lexAll k n s = .outOfFuel := by
  induction n with
  | zero => rfl
  | succ n ih =>
    rcases h with h | h
    · rw [lexAll, h k]
    · rcases Nat.eq_zero_or_pos k with rfl | hk
      · rw [lexAll]
        cases hg : getToken 0 s with
        | tok t s' =>
          have hd := getToken_mono 0 1 s (by rw [hg]; simp) (by omega)
          rw [hg, h 1 (by omega)] at hd
          cases hd
          simp only
          rw [ih]
        | throw =>
          have hd := getToken_mono 0 1 s (by rw [hg]; simp) (by omega)
          rw [hg, h 1 (by omega)] at hd
          cases hd
        | outOfFuel => rfl
      · rw [lexAll_cons (h k hk) (by simp), ih]

theorem calls_stuck_never {s s' : St} (h : Calls s s') (hs : Stuck s') (k n : Nat) : lexAll k n s = .outOfFuel := by
  induction h generalizing n with
  | none s => exact stuck_never hs k n
  | call K t h1 h2 _ ih =>
    cases n with
    | zero => rfl
    | succ n =>
      rename_i s s1 s2 _
      by_cases hg : getToken k s = .outOfFuel
      · rw [lexAll, hg]
      · have := getToken_det K k s (by rw [h1]; simp) hg
        rw [h1] at this
        rw [lexAll_cons this.symm h2, ih hs]

theorem ends_or_stuck (m : Nat) : ∀ s : St, s.rest.length < m →
    (∃ N r, r ≠ .outOfFuel ∧ ∀ k n, N ≤ k → N ≤ n → lexAll k n s = r) ∨ (∃ s', Calls s s' ∧ Stuck s') := by
  have heof : ∀ s : St, (s.bad = true ∨ s.rest = []) → ∀ k n, 1 ≤ n → lexAll k n s = .toks [] := by
    intro s hs k n hn
    obtain ⟨n, rfl⟩ : ∃ j, n = j + 1 := ⟨n - 1, by omega⟩
    have : getToken k s = .tok .eof { s with bad := true } := by
      unfold getToken; rw [if_pos (by rcases hs with h | h <;> simp [h])]
    rw [lexAll, this]
  induction m with
  | zero => intro s h; omega
  | succ m ih =>
    intro s hm
    by_cases hend : s.bad = true ∨ s.rest = []
    · exact Or.inl ⟨1, _, by simp, fun k n _ hn => heof s hend k n hn⟩
    by_cases hh : ∀ k, getToken k s = .outOfFuel
    · exact Or.inr ⟨s, .none s, Or.inl hh⟩
    push Not at hh
    obtain ⟨K, hK⟩ := hh
    cases hg : getToken K s with
    | outOfFuel => exact absurd hg hK
    | throw =>
      refine Or.inl ⟨K + 1, .throw, by simp, fun k n hk hn => ?_⟩
      obtain ⟨n, rfl⟩ : ∃ j, n = j + 1 := ⟨n - 1, by omega⟩
      have := getToken_mono K k s hK (by omega)
      rw [hg] at this
      rw [lexAll, this]
    | tok t s1 =>
      have hne : t ≠ .eof := by
        rintro rfl
        exfalso
        unfold getToken at hg
        rw [if_neg (by simpa using hend)] at hg
        split at hg
        · cases hg
        · split at hg
          · split at hg
            · cases hg
            · rename_i b _
              have hd : dispatch b ≠ .eof := by
                unfold dispatch
                split
                · rename_i kw hk
                  exact (by decide : ∀ kw ∈ keywords, kw.2 ≠ .eof) kw (List.mem_of_find?_eq_some hk)
                · decide
              injection hg with h1
              exact hd h1
          · split at hg
            · simp only at hg
              split at hg
              · cases hg
              · split at hg <;> cases hg
            · split at hg
              · split at hg <;> cases hg
              · cases hg
      have next : (∃ N r, r ≠ .outOfFuel ∧ ∀ k n, N ≤ k → N ≤ n → lexAll k n s1 = r) ∨ (∃ s', Calls s1 s' ∧ Stuck s') := by
        by_cases he : s1.bad = true ∨ s1.rest = []
        · exact Or.inl ⟨1, _, by simp, fun k n _ hn => heof s1 he k n hn⟩
        push Not at he
        have hb : s1.bad = false := by simpa using he.1
        by_cases hu : t = .unknownToken
        · subst hu
          exact Or.inr ⟨s1, .none s1, Or.inr (C34_unknown_token_stuck K s s1 hg he.2 hb).1⟩
        · rcases C34_progress K s s1 t hg hne hu with h1 | h1
          · exact ih s1 (by omega)
          · exact absurd h1 he.1
      rcases next with ⟨N, r, hr, hN⟩ | ⟨s', h1, h2⟩
      · refine Or.inl ⟨max N K + 1, match r with | .toks l => .toks (t :: l) | r => r, ?_, ?_⟩
        · cases r <;> simp at hr ⊢
        · intro k n hk hn
          obtain ⟨n, rfl⟩ : ∃ j, n = j + 1 := ⟨n - 1, by omega⟩
          have := getToken_mono K k s hK (by omega)
          rw [hg] at this
          rw [lexAll_cons this hne, hN k n (by omega) (by omega)]
          cases r <;> rfl
      · exact Or.inr ⟨s', .call K t hg hne h1, h2⟩

/-- C34 (every stream): on every text, asking for tokens either ends, with end-of-file or an exception, after finitely many calls that
all return; or after some calls the reader is stuck, and then it never ends.  `C34_getToken_hangs_iff` and
`C34_unknown_token_stuck` say which texts these are. -/
theorem C34_every_stream (text : List Char) :
    ((∃ N r, r ≠ .outOfFuel ∧ ∀ k n, N ≤ k → N ≤ n → lexAll k n (start text) = r) ↔ ¬ ∃ s', Calls (start text) s' ∧ Stuck s') ∧
    ((∃ s', Calls (start text) s' ∧ Stuck s') → ∀ k n, lexAll k n (start text) = .outOfFuel) := by
  have h2 : (∃ s', Calls (start text) s' ∧ Stuck s') → ∀ k n, lexAll k n (start text) = .outOfFuel :=
    fun ⟨s', h1, h2⟩ => calls_stuck_never h1 h2
  refine ⟨⟨fun ⟨N, r, hr, hN⟩ hs => ?_, fun hs => ?_⟩, h2⟩
  · exact hr ((hN N N (Nat.le_refl _) (Nat.le_refl _)).symm.trans (h2 hs N N))
  · exact (ends_or_stuck _ (start text) (Nat.lt_succ_self _)).resolve_right hs

/-- C34 (defect witness): an otherwise fine file whose last line is not terminated is never finished. -/
theorem C34_hang_missing_final_newline (k n : Nat) :
    ∀ l, lexAll k n (start "$Nodes\n0\n$EndNodes".toList) ≠ .toks l := by
  revert k n
  refine lexAll_ne_step 100 (t := .nodes)
    (s' := { last := '\n', rest := "0\n$EndNodes".toList, bad := false, line := 2, col := 1 })
    (by decide +kernel) (by decide) ?_
  refine lexAll_ne_step 200 (t := .integer 0)
    (s' := { last := '\n', rest := "$EndNodes".toList, bad := false, line := 3, col := 1 })
    (by decide +kernel) (by decide) ?_
  refine lexAll_ne_hang ?_
  rw [C34_getToken_hangs_iff _ rfl (by decide)]
  right; left
  exact ⟨['\n'], "EndNodes".toList, by decide, by decide, by decide, by decide⟩

/-- C34 (defect witness): so is a file with a blank line at the end. -/
theorem C34_hang_trailing_blank_line (k n : Nat) :
    ∀ l, lexAll k n (start "$EndNodes\n\n".toList) ≠ .toks l := by
  revert k n
  refine lexAll_ne_step 100 (t := .endNodes)
    (s' := { last := '\n', rest := "\n".toList, bad := false, line := 2, col := 1 })
    (by decide +kernel) (by decide) ?_
  refine lexAll_ne_hang ?_
  rw [C34_getToken_hangs_iff _ rfl (by decide)]
  left; decide

/-- C34 (defect): a number that runs into the end of the file is reported as too large, whatever its
length. -/
theorem C34_number_at_eof_throws (s : St) (hb : s.bad = false) (sp t : List Char)
    (hsp : ∀ c ∈ sp, isSpace c = true) (ht0 : t ≠ []) (ht : ∀ c ∈ t, isNumber c = true)
    (hv : view s = sp ++ t) (hr : s.rest ≠ []) (fuel : Nat) (hf : (view s).length < fuel) :
    getToken fuel s = .throw := by
  obtain ⟨a, t', rfl⟩ := List.exists_cons_of_ne_nil ht0
  have ha := isNumber_ne a (ht a (by simp))
  obtain ⟨s1, h1, h2, h3⟩ := skipSpace_ok sp s a t' fuel hv hsp ha.1 hb
    (by rw [hv] at hf; simp at hf; omega)
  have hl : s1.last = a := by simp [view] at h2; exact h2.1
  have hne : (s.bad || s.rest.isEmpty) = false := by rw [hb]; simpa using hr
  have := number_full maxNumberLength s1 [] (by rw [h2]; exact ht)
  simp [getToken, hne, h1, hl, ha.2, ht a (by simp), this]

/-- Non-vacuity of the round trip: a small file. -/
example : lexAll 100 10 (start "$Nodes\n1\n1 0.5 -2 \"a b\"\n$EndNodes\n".toList) =
    .toks [.nodes, .integer 1, .integer 1, .real "0.5".toList, .integer (-2), .string, .endNodes] := by
  decide +kernel
example : (PTok.num "0.5".toList).Ok ∧ (PTok.sect "Nodes".toList).Ok ∧ (PTok.str "a b".toList).Ok ∧
    SepOk [(PTok.sect "Nodes".toList, "\n".toList), (PTok.num "0.5".toList, "\n".toList)] := by
  refine ⟨⟨by decide, by decide, by decide⟩, by show ∀ c ∈ _, _; decide, by show _ ∉ _; decide, by decide, by decide, '\n', rfl, rfl⟩
/-- The boundary of the hang condition: one character of trailing white space is fine. -/
example : lexAll 100 10 (start "$EndNodes\n".toList) = .toks [.endNodes] := by decide +kernel

theorem isDigit_iff (c : Char) : isDigit c = c.isDigit := by
  simp only [isDigit, Char.isDigit, Char.le_def]

theorem digitsVal_digits (l : List Char) (h : ∀ c ∈ l, c.isDigit = true) :
    digitsVal l = Nat.ofDigitChars 10 l 0 := by
  have : l.takeWhile isDigit = l := by
    induction l with
    | nil => rfl
    | cons c l ih =>
      rw [List.takeWhile_cons_of_pos (by rw [isDigit_iff]; exact h c (by simp)),
        ih (fun d hd => h d (by simp [hd]))]
  rw [digitsVal, this, Nat.ofDigitChars_eq_foldl]
  rfl

theorem digitsVal_repr (n : Nat) : digitsVal (toString n).toList = n := by
  have e : (toString n).toList = Nat.toDigits 10 n := by
    show (Nat.repr n).toList = _
    rw [Nat.toList_repr]
  rw [e, digitsVal_digits _ (fun c hc => Nat.isDigit_of_mem_toDigits (by omega) (by omega) hc)]
  exact Nat.ofDigitChars_ten_toDigits

/-- C34 (integers): the token for the decimal text of a non-negative number, with or without a plus
sign, or of a negated number, carries that number, for all numbers in the range of a C `long`. -/
theorem C34_integer_value (n : Nat) :
    (n < 2 ^ 63 → strtol (toString n).toList = n ∧ strtol ('+' :: (toString n).toList) = n) ∧
    (n ≤ 2 ^ 63 → strtol ('-' :: (toString n).toList) = -n) := by
  have hh : strtol (toString n).toList = clampLong (digitsVal (toString n).toList) := by
    have hd : ∀ c ∈ (toString n).toList, c.isDigit = true := by
      intro c hc
      have e : (toString n).toList = Nat.toDigits 10 n := by
        show (Nat.repr n).toList = _
        rw [Nat.toList_repr]
      rw [e] at hc
      exact Nat.isDigit_of_mem_toDigits (by omega) (by omega) hc
    generalize (toString n).toList = l at hd
    unfold strtol
    split
    · exact absurd (hd '-' (by simp)) (by decide)
    · exact absurd (hd '+' (by simp)) (by decide)
    · rfl
  refine ⟨fun h => ⟨?_, ?_⟩, fun h => ?_⟩
  · rw [hh, digitsVal_repr]; simp only [clampLong]; omega
  · simp only [strtol, digitsVal_repr, clampLong]; omega
  · simp only [strtol, digitsVal_repr, clampLong]; omega

/-- Hence the whole token sequence of a list of printed non-negative integers is known. -/
example : strtol "-0042".toList = -42 ∧ strtol "17".toList = 17 ∧
    strtol "99999999999999999999".toList = 2 ^ 63 - 1 := by decide +kernel

end Tandem.GMSHLexer
