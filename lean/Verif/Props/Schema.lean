import Verif.Spec.Schema
/-! # Property C12: configuration schemas -/
namespace Tandem.Schema
open Tandem.Spec

variable {α L : Type}

theorem mapEntries_ok {s : Schema α L} (h : ∀ n v, translate s n = .ok v ↔ Reads s n v) :
    ∀ (ns : List (Node α)) (i : Nat) (vs : List (Val L)),
      mapEntries (translate s) i ns = .ok vs ↔ ReadsAll s ns vs := by
  intro ns
  induction ns with
  | nil =>
    intro i vs
    simp only [mapEntries, Except.ok.injEq]
    constructor
    · rintro rfl; exact .nil
    · rintro ⟨⟩; rfl
  | cons n ns ih =>
    intro i vs
    simp only [mapEntries]
    constructor
    · intro hh
      split at hh
      · simp at hh
      · rename_i v hv
        split at hh
        · simp at hh
        · rename_i vs' hvs
          simp only [Except.ok.injEq] at hh
          subst hh
          exact .cons ((h n v).1 hv) ((ih _ _).1 hvs)
    · rintro ⟨⟩
      rename_i v vs h1 h2
      simp only [(h n v).2 h1, (ih (i + 1) vs).2 h2]

mutual
theorem translate_iff : ∀ (s : Schema α L) (n : Node α) (v : Val L),
    translate s n = .ok v ↔ Reads s n v
  | .value conv fs valid, n, v => by
    cases n with
    | leaf a =>
      simp only [translate]
      constructor
      · intro h
        split at h
        · simp at h
        · rename_i x hx
          split at h
          · rename_i hv
            simp only [Except.ok.injEq] at h; subst h
            exact .value hx hv
          · simp at h
      · rintro ⟨⟩
        rename_i x h1 h2
        simp [h1, h2]
    | arr l =>
      simp only [translate]
      constructor
      · intro h; simp at h
      · intro h; cases h
    | tbl l =>
      simp only [translate]
      constructor
      · intro h; simp at h
      · intro h; cases h
  | .array of mn mx valid, n, v => by
    have hm := mapEntries_ok (translate_iff of)
    cases n with
    | leaf a =>
      simp only [translate]
      constructor
      · intro h; simp at h
      · intro h; cases h
    | tbl l =>
      simp only [translate]
      constructor
      · intro h; simp at h
      · intro h; cases h
    | arr l =>
      simp only [translate]
      constructor
      · intro h
        split at h
        · simp at h
        · rename_i hs
          split at h
          · simp at h
          · rename_i vs hvs
            split at h
            · rename_i hv
              simp only [Except.ok.injEq] at h; subst h
              exact .array (by omega) (by omega) ((hm _ _ _).1 hvs) hv
            · simp at h
      · intro h
        cases h with
        | array h1 h2 h3 h4 =>
          rename_i vs
          rw [if_neg (by omega), (hm l 0 vs).2 h3]
          simp [h4]
  | .table fs valid, n, v => by
    simp only [translate]
    constructor
    · intro h
      split at h
      · simp at h
      · rename_i vs hvs
        split at h
        · rename_i hv
          simp only [Except.ok.injEq] at h; subst h
          exact .table ((translateFields_iff fs n vs).1 hvs) hv
        · simp at h
    · intro h
      cases h with
      | table h1 h2 =>
        rename_i vs
        rw [(translateFields_iff fs n vs).2 h1]
        simp [h2]
theorem translateFields_iff : ∀ (fs : Fields α L) (n : Node α) (vs : List (Option (Val L))),
    translateFields fs n = .ok vs ↔ ReadsFields fs n vs
  | .nil, n, vs => by
    simp only [translateFields, Except.ok.injEq]
    constructor
    · rintro rfl; exact .nil
    · rintro ⟨⟩; rfl
  | .cons k d s r, n, vs => by
    have h1 := translate_iff s
    have h2 := translateFields_iff r n
    rw [translateFields.eq_def]; simp only
    cases hg : n.get k with
    | none =>
      cases d with
      | required =>
        simp only
        constructor
        · intro h; simp at h
        · intro h; cases h with | present h3 => rw [hg] at h3; simp at h3
      | default w =>
        simp only
        constructor
        · intro h
          split at h
          · simp at h
          · rename_i ws hws
            simp only [Except.ok.injEq] at h; subst h
            exact .default hg ((h2 _).1 hws)
        · intro h
          cases h with
          | present h3 => rw [hg] at h3; simp at h3
          | default h3 h4 => rw [(h2 _).2 h4]
      | optional =>
        simp only
        constructor
        · intro h
          split at h
          · simp at h
          · rename_i ws hws
            simp only [Except.ok.injEq] at h; subst h
            exact .optional hg ((h2 _).1 hws)
        · intro h
          cases h with
          | present h3 => rw [hg] at h3; simp at h3
          | optional h3 h4 => rw [(h2 _).2 h4]
    | some m =>
      simp only
      constructor
      · intro h
        cases ht : translate s m with
        | error e => rw [ht] at h; simp at h
        | ok v =>
          rw [ht] at h
          simp only at h
          split at h
          · simp at h
          · rename_i ws hws
            simp only [Except.ok.injEq] at h; subst h
            exact .present hg ((h1 m v).1 ht) ((h2 _).1 hws)
      · intro h
        cases h with
        | present h3 h4 h5 =>
          rw [hg] at h3
          simp only [Option.some.injEq] at h3; subst h3
          rw [(h1 _ _).2 h4]
          simp only
          rw [(h2 _).2 h5]
        | default h3 => rw [hg] at h3; simp at h3
        | optional h3 => rw [hg] at h3; simp at h3
end

/-- C12: translation succeeds with a value exactly when the node is a valid description of that value:
every present key converts and validates, every missing key has a default or is optional, every
array has an admissible length, and the validators of arrays and tables accept. -/
theorem C12_translate_iff (s : Schema α L) (n : Node α) (v : Val L) :
    translate s n = .ok v ↔ Reads s n v := translate_iff s n v

theorem fields_spec : ∀ (fs : Fields α L) (n : Node α) (vs : List (Option (Val L))),
    ReadsFields fs n vs → vs.length = (fieldList fs).length ∧
    ∀ (i : Nat) (k : String) (d : Kind L) (s : Schema α L), (fieldList fs)[i]? = some (k, d, s) →
      match n.get k with
      | some m => ∃ v, translate s m = .ok v ∧ vs[i]? = some (some v)
      | none => match d with
        | .required => False
        | .default v => vs[i]? = some (some v)
        | .optional => vs[i]? = some none
  | .nil, n, vs, h => by
    cases h
    exact ⟨rfl, by intro i k d s h; simp [fieldList] at h⟩
  | .cons k d s r, n, vs, h => by
    cases h with
    | present hg hr hf =>
      have ih := fields_spec r n _ hf
      refine ⟨by simp [fieldList, ih.1], ?_⟩
      intro i k' d' s' hi
      cases i with
      | zero =>
        simp only [fieldList, List.getElem?_cons_zero, Option.some.injEq, Prod.mk.injEq] at hi
        obtain ⟨rfl, rfl, rfl⟩ := hi
        rw [hg]
        exact ⟨_, (translate_iff _ _ _).2 hr, rfl⟩
      | succ i =>
        simp only [fieldList, List.getElem?_cons_succ] at hi
        exact ih.2 i k' d' s' hi
    | default hg hf =>
      have ih := fields_spec r n _ hf
      refine ⟨by simp [fieldList, ih.1], ?_⟩
      intro i k' d' s' hi
      cases i with
      | zero =>
        simp only [fieldList, List.getElem?_cons_zero, Option.some.injEq, Prod.mk.injEq] at hi
        obtain ⟨rfl, rfl, rfl⟩ := hi
        rw [hg]
        rfl
      | succ i =>
        simp only [fieldList, List.getElem?_cons_succ] at hi
        exact ih.2 i k' d' s' hi
    | optional hg hf =>
      have ih := fields_spec r n _ hf
      refine ⟨by simp [fieldList, ih.1], ?_⟩
      intro i k' d' s' hi
      cases i with
      | zero =>
        simp only [fieldList, List.getElem?_cons_zero, Option.some.injEq, Prod.mk.injEq] at hi
        obtain ⟨rfl, rfl, rfl⟩ := hi
        rw [hg]
        rfl
      | succ i =>
        simp only [fieldList, List.getElem?_cons_succ] at hi
        exact ih.2 i k' d' s' hi

/-- C12 (field by field): in a successfully translated table, the i-th member is determined by the
i-th field and the node found under its key alone (so fields do not influence each other), and the
default is used iff the key is missing. -/
theorem C12_field (fs : Fields α L) (valid : List (Option (Val L)) → Bool) (n : Node α)
    (vs : List (Option (Val L))) (h : translate (.table fs valid) n = .ok (.recd vs)) :
    valid vs = true ∧ vs.length = (fieldList fs).length ∧
    ∀ (i : Nat) (k : String) (d : Kind L) (s : Schema α L), (fieldList fs)[i]? = some (k, d, s) →
      match n.get k with
      | some m => ∃ v, translate s m = .ok v ∧ vs[i]? = some (some v)
      | none => match d with
        | .required => False
        | .default v => vs[i]? = some (some v)
        | .optional => vs[i]? = some none := by
  rw [translate_iff] at h
  cases h with
  | table h1 h2 => exact ⟨h2, fields_spec fs n vs h1⟩

theorem fields_error : ∀ (fs : Fields α L) (n : Node α) (e : Err),
    translateFields fs n = .error e →
    ∃ (i : Nat) (k : String) (d : Kind L) (s : Schema α L) (path : List Step),
      (fieldList fs)[i]? = some (k, d, s) ∧ e.path = .key k :: path ∧
      match n.get k with
      | none => (match d with | .required => True | _ => False) ∧ path = [] ∧ e.reason = .missing
      | some m => translate s m = .error ⟨path, e.reason⟩
  | .nil, n, e, h => by simp [translateFields] at h
  | .cons k d s r, n, e, h => by
    rw [translateFields.eq_def] at h; simp only at h
    have key : ∀ w, (match translateFields r n with
        | .error e => Except.error e
        | .ok vs => Except.ok (w :: vs)) = .error e →
        ∃ (i : Nat) (k' : String) (d' : Kind L) (s' : Schema α L) (path : List Step),
      (fieldList (.cons k d s r))[i]? = some (k', d', s') ∧ e.path = .key k' :: path ∧
      match n.get k' with
      | none => (match d' with | .required => True | _ => False) ∧ path = [] ∧ e.reason = .missing
      | some m => translate s' m = .error ⟨path, e.reason⟩ := by
      intro w hw
      split at hw
      · rename_i e' he
        simp only [Except.error.injEq] at hw; subst hw
        obtain ⟨i, k', d', s', p, h1, h2⟩ := fields_error r n e' he
        exact ⟨i + 1, k', d', s', p, by simpa [fieldList] using h1, h2⟩
      · simp at hw
    cases hg : n.get k with
    | none =>
      rw [hg] at h
      cases d with
      | required =>
        simp only [Except.error.injEq] at h; subst h
        exact ⟨0, k, .required, s, [], rfl, rfl, by rw [hg]; exact ⟨trivial, rfl, rfl⟩⟩
      | default w => exact key _ h
      | optional => exact key _ h
    | some m =>
      rw [hg] at h
      simp only at h
      cases ht : translate s m with
      | error e' =>
        rw [ht] at h
        simp only [Except.error.injEq] at h; subst h
        exact ⟨0, k, d, s, e'.path, rfl, rfl, by rw [hg]; exact ht⟩
      | ok v => rw [ht] at h; exact key _ h

/-- C12 (errors name the field): if a table cannot be translated, the message points to a field of the
schema - either a required one whose key is missing, or one whose value cannot be translated, and
then the rest of the message is the message for that value - or the validator of the table itself
rejected the members. -/
theorem C12_error_names_field (fs : Fields α L) (valid : List (Option (Val L)) → Bool) (n : Node α)
    (e : Err) (h : translate (.table fs valid) n = .error e) :
    (∃ (i : Nat) (k : String) (d : Kind L) (s : Schema α L) (path : List Step),
      (fieldList fs)[i]? = some (k, d, s) ∧ e.path = .key k :: path ∧
      match n.get k with
      | none => (match d with | .required => True | _ => False) ∧ path = [] ∧ e.reason = .missing
      | some m => translate s m = .error ⟨path, e.reason⟩) ∨
    (∃ vs, translateFields fs n = .ok vs ∧ valid vs = false ∧ e = ⟨[], .validator⟩) := by
  rw [translate] at h
  split at h
  · rename_i e' he
    simp only [Except.error.injEq] at h; subst h
    exact Or.inl (fields_error fs n e' he)
  · rename_i vs hvs
    split at h
    · simp at h
    · rename_i hv
      simp only [Except.error.injEq] at h
      exact Or.inr ⟨vs, hvs, by simpa using hv, h.symm⟩

theorem fields_congr : ∀ (fs : Fields α L) (n n' : Node α),
    (∀ k d s, (k, d, s) ∈ fieldList fs → n.get k = n'.get k) →
    translateFields fs n = translateFields fs n'
  | .nil, n, n', _ => rfl
  | .cons k d s r, n, n', h => by
    rw [translateFields.eq_def, translateFields.eq_def]; simp only
    rw [h k d s (by simp [fieldList]),
      fields_congr r n n' (fun k' d' s' hm => h k' d' s' (by simp [fieldList, hm]))]

/-- C12 (unknown keys): the result depends only on what the node has under the keys of the schema;
other keys and the order of keys are irrelevant. -/
theorem C12_unknown_keys_ignored (fs : Fields α L) (valid : List (Option (Val L)) → Bool)
    (n n' : Node α) (h : ∀ k d s, (k, d, s) ∈ fieldList fs → n.get k = n'.get k) :
    translate (.table fs valid) n = translate (.table fs valid) n' := by
  rw [translate, translate, fields_congr fs n n' h]

/-- C12 (weakness): a number or an array where a table is expected is treated like an empty table, so
it is accepted whenever all fields have defaults or are optional. -/
theorem C12_non_table_is_empty_table (fs : Fields α L) (valid : List (Option (Val L)) → Bool)
    (n : Node α) (h : ∀ l, n ≠ .tbl l) :
    translate (.table fs valid) n = translate (.table fs valid) (.tbl []) := by
  apply C12_unknown_keys_ignored
  intro k _ _ _
  cases n with
  | leaf => rfl
  | arr => rfl
  | tbl l => exact absurd rfl (h l)

/-- A table with a validated field "n" whose default is 0 while the validator wants positive values. -/
def exSchema : Schema Int Int :=
  .table (.cons "n" (.default (.leaf 0)) (.value some (fun _ => some 5) (fun x => 0 < x))
    (.cons "m" .optional (.value some (fun _ => some 7) (fun _ => true)) .nil)) (fun _ => true)

/-- C12 (weakness): defaults are not validated. -/
theorem C12_default_not_validated : ∃ (fs : Fields Int Int) (v : Val Int) (x : Int),
    fieldList fs = [("n", .default (.leaf x), .value some (fun _ => none) (fun x => 0 < x))] ∧
    translate (.table fs (fun _ => true)) (.tbl []) = .ok v ∧
    v = .recd [some (.leaf x)] ∧ ¬ (0 < x) :=
  ⟨.cons "n" (.default (.leaf 0)) (.value some (fun _ => none) (fun x => 0 < x)) .nil, _, 0, rfl,
    rfl, rfl, by decide⟩

theorem set_spec : ∀ (fs : Fields α L) (vs vs' : List (Option (Val L))) (key : String)
    (value : List Char), vs.length = (fieldList fs).length →
    set fs vs key value = .ok vs' →
    vs'.length = vs.length ∧
    ((∀ k d s, (k, d, s) ∈ fieldList fs → k ≠ key) → vs' = vs) ∧
    ∀ (i : Nat) (k : String) (d : Kind L) (s : Schema α L), (fieldList fs)[i]? = some (k, d, s) →
      (k = key → (∀ j, j < i → ∀ q : String × Kind L × Schema α L, (fieldList fs)[j]? = some q → q.1 ≠ key) →
        ∃ v, translateStr s value = .ok v ∧ vs'[i]? = some (some v)) ∧
      (k ≠ key → vs'[i]? = vs[i]?)
  | .nil, vs, vs', key, value, hl, h => by
    cases vs with
    | nil => simp [set] at h; subst h; simp [fieldList]
    | cons => simp [fieldList] at hl
  | .cons k d s r, vs, vs', key, value, hl, h => by
    cases vs with
    | nil => simp [fieldList] at hl
    | cons v vs =>
      rw [set] at h
      by_cases hk : key = k
      · rw [if_pos hk] at h
        cases ht : translateStr s value with
        | error e => rw [ht] at h; simp at h
        | ok x =>
          rw [ht] at h
          simp only [Except.ok.injEq] at h; subst h
          refine ⟨by simp, fun hn => absurd hk.symm (hn k d s (by simp [fieldList])), ?_⟩
          intro i k' d' s' hi
          cases i with
          | zero =>
            simp only [fieldList, List.getElem?_cons_zero, Option.some.injEq, Prod.mk.injEq] at hi
            obtain ⟨rfl, rfl, rfl⟩ := hi
            exact ⟨fun _ _ => ⟨x, ht, rfl⟩, fun hne => absurd hk.symm hne⟩
          | succ i =>
            refine ⟨fun _ hfirst => ?_, fun _ => by simp⟩
            exact absurd hk.symm (hfirst 0 (by omega) (k, d, s) rfl)
      · rw [if_neg hk] at h
        cases hs : set r vs key value with
        | error e => rw [hs] at h; simp at h
        | ok ws =>
          rw [hs] at h
          simp only [Except.ok.injEq] at h; subst h
          obtain ⟨h1, h2, h3⟩ := set_spec r vs ws key value (by simpa [fieldList] using hl) hs
          refine ⟨by simp [h1], ?_, ?_⟩
          · intro hn
            rw [h2 (fun k' d' s' hm => hn k' d' s' (by simp [fieldList, hm]))]
          · intro i k' d' s' hi
            cases i with
            | zero =>
              simp only [fieldList, List.getElem?_cons_zero, Option.some.injEq, Prod.mk.injEq] at hi
              obtain ⟨rfl, rfl, rfl⟩ := hi
              exact ⟨fun he => absurd he.symm hk, fun _ => rfl⟩
            | succ i =>
              simp only [fieldList, List.getElem?_cons_succ] at hi
              obtain ⟨h4, h5⟩ := h3 i k' d' s' hi
              refine ⟨fun he hfirst => ?_, fun hne => by simpa using h5 hne⟩
              obtain ⟨x, h6, h7⟩ := h4 he (fun j hj q hq => hfirst (j + 1) (by omega) q
                (by simpa [fieldList] using hq))
              exact ⟨x, h6, by simpa using h7⟩

/-- C12 (command line): overriding a key replaces exactly the member of the first field with that key
by the converted and validated value; all members with other keys keep their values; an unknown key
changes nothing. -/
theorem C12_set (fs : Fields α L) (vs vs' : List (Option (Val L))) (key : String)
    (value : List Char) (hl : vs.length = (fieldList fs).length)
    (h : set fs vs key value = .ok vs') :
    vs'.length = vs.length ∧
    ((∀ k d s, (k, d, s) ∈ fieldList fs → k ≠ key) → vs' = vs) ∧
    ∀ (i : Nat) (k : String) (d : Kind L) (s : Schema α L), (fieldList fs)[i]? = some (k, d, s) →
      (k = key → (∀ j, j < i → ∀ q : String × Kind L × Schema α L, (fieldList fs)[j]? = some q → q.1 ≠ key) →
        ∃ v, translateStr s value = .ok v ∧ vs'[i]? = some (some v)) ∧
      (k ≠ key → vs'[i]? = vs[i]?) := set_spec fs vs vs' key value hl h

/-- C12 (integers on the command line): the decimal text of a number in range, followed in memory by a
terminating NUL, is converted to that number. -/
theorem C12_integer_text (lo hi : Int) (n : Nat) (after : List Char)
    (h : lo ≤ (n : Int) ∧ (n : Int) ≤ hi) :
    intFromStr lo hi ((toString n).toList ++ '\x00' :: after) (toString n).toList.length = .ok n ∧
    (lo ≤ -(n : Int) ∧ -(n : Int) ≤ hi →
      intFromStr lo hi (('-' :: (toString n).toList) ++ '\x00' :: after)
        ('-' :: (toString n).toList).length = .ok (-n)) := by
  have e : (toString n).toList = Nat.toDigits 10 n := by
    show (Nat.repr n).toList = _
    rw [Nat.toList_repr]
  have hd : ∀ c ∈ (toString n).toList, c.isDigit = true := by
    intro c hc
    rw [e] at hc
    exact Nat.isDigit_of_mem_toDigits (by omega) (by omega) hc
  have hval : Nat.ofDigitChars 10 (toString n).toList 0 = n := by
    rw [e]; exact Nat.ofDigitChars_ten_toDigits
  have hne : (toString n).toList ≠ [] := by
    rw [e]; exact Nat.toDigits_ne_nil
  generalize (toString n).toList = l at hd hval hne
  have htw : ∀ (t : List Char), (∀ c ∈ t.head?, c.isDigit = false) →
      (l ++ t).takeWhile Char.isDigit = l := by
    intro t ht
    clear hval hne e
    induction l with
    | nil =>
      cases t with
      | nil => rfl
      | cons c t => simp [ht c (by simp)]
    | cons c l ih =>
      rw [List.cons_append, List.takeWhile_cons_of_pos (hd c (by simp)),
        ih (fun d hd' => hd d (by simp [hd']))]
  have htake : ∀ (p : List Char), ∃ t, (p ++ l ++ '\x00' :: after).take ((p ++ l).length + (p ++ l).length) =
      p ++ (l ++ t) ∧ ∀ c ∈ t.head?, c.isDigit = false := by
    intro p
    have hp : 0 < (p ++ l).length := by
      have := List.length_pos_iff.2 hne
      simp; omega
    obtain ⟨m, hm⟩ : ∃ m, (p ++ l).length = m + 1 := ⟨(p ++ l).length - 1, by omega⟩
    refine ⟨('\x00' :: after).take (p ++ l).length, ?_, ?_⟩
    · rw [List.take_length_add_append, List.append_assoc]
    · rw [hm, List.take_succ_cons]
      intro c hc
      simp at hc; subst hc; decide
  refine ⟨?_, fun hneg => ?_⟩
  · obtain ⟨t, h1, h2⟩ := htake []
    simp only [List.nil_append] at h1
    rw [intFromStr, h1, fromChars]
    obtain ⟨c, l', hcl⟩ := List.exists_cons_of_ne_nil hne
    have hc : c ≠ '-' := by
      rintro rfl
      exact absurd (hd '-' (by rw [hcl]; simp)) (by decide)
    have hm : splitSign (l ++ t) = (false, l ++ t) := by
      rw [hcl]
      simp only [List.cons_append]
      unfold splitSign
      split
      · rename_i r heq; simp at heq; exact absurd heq.1 hc
      · rfl
    rw [hm]
    simp only [htw t h2, hval]
    simp [hne, h]
  · obtain ⟨t, h1, h2⟩ := htake ['-']
    rw [intFromStr]
    have h1' : (('-' :: l) ++ '\x00' :: after).take (('-' :: l).length + ('-' :: l).length) =
        '-' :: (l ++ t) := by simpa using h1
    rw [h1', fromChars, splitSign]
    simp only [htw t h2, hval]
    simp [hne, hneg]

/-- C12 (weakness): trailing garbage after an integer is accepted, and the conversion reads up to
`size` characters behind the end of the string. -/
theorem C12_integer_garbage (after : List Char) :
    intFromStr (-100000) 100000 ("12ab".toList ++ '\x00' :: after) 4 = .ok 12 ∧
    intFromStr (-100000) 100000 ("12".toList ++ '3' :: '4' :: after) 2 = .ok 1234 := by
  constructor
  · show fromChars _ _ ('1' :: '2' :: 'a' :: 'b' :: (('\x00' :: after).take 4)) = _
    rfl
  · show fromChars _ _ ['1', '2', '3', '4'] = _
    decide +kernel

/-- C12 (weakness): `iEquals(a, b)` on NUL-free `a` and NUL-terminated `b` holds iff `a` is a
case-insensitive *prefix* of `b`; in particular the empty string equals everything. -/
theorem C12_iEquals_is_prefix (a b after : List Char) (ha : '\x00' ∉ a) (hb : '\x00' ∉ b) :
    iEquals a b ('\x00' :: after) =
      some (decide (a.map Char.toLower <+: b.map Char.toLower)) := by
  unfold iEquals
  induction a generalizing b with
  | nil => simp [equalPrefix]
  | cons x a ih =>
    have hx : x ≠ '\x00' := by rintro rfl; simp at ha
    cases b with
    | nil =>
      have : x.toLower ≠ Char.toLower '\x00' := by
        have e : Char.toLower '\x00' = '\x00' := by decide
        rw [e]
        intro h0
        apply hx
        unfold Char.toLower at h0
        split at h0
        · rename_i hr
          exfalso
          have h3 := congrArg Char.val h0
          have h4 : x.val + 32 = 0 := h3
          have h5 : 65 ≤ x.val.toNat := UInt32.le_iff_toNat_le.1 hr.1
          have h6 : x.val.toNat ≤ 90 := UInt32.le_iff_toNat_le.1 hr.2
          have h7 := congrArg UInt32.toNat h4
          rw [UInt32.toNat_add] at h7
          have h8 : (x.val.toNat + 32) % 2 ^ 32 = 0 := h7
          omega
        · exact h0
      simp only [List.nil_append, equalPrefix, if_neg this]
      simp
    | cons y b =>
      simp only [List.cons_append, equalPrefix]
      by_cases hxy : x.toLower = y.toLower
      · rw [if_pos hxy, ih b (by simp at ha; exact ha.2) (by simp at hb; exact hb.2)]
        simp [hxy]
      · simp [hxy]

example : translate exSchema (.tbl [("zzz", .leaf 3), ("n", .leaf 4)]) =
    .ok (.recd [some (.leaf 4), none]) := rfl

example : translate exSchema (.tbl [("n", .leaf (-4))]) =
    .error ⟨[.key "n"], .validator⟩ := rfl

end Tandem.Schema
