import Verif.Spec.Main
import Verif.Props.Schema
import Mathlib.Tactic.Common
import Mathlib.Data.List.Nodup
namespace Tandem.Main
open Tandem.Schema Tandem.Spec

variable {α L : Type}

theorem toLower_ne_nul {x : Char} (h : x ≠ '\x00') : x.toLower ≠ '\x00' := by
  intro h0
  apply h
  unfold Char.toLower at h0
  split at h0
  · rename_i hr
    exfalso
    have h3 := congrArg Char.val h0
    have h4 : x.val + 32 = 0 := h3
    have h5 : 65 ≤ x.val.toNat := UInt32.le_iff_toNat_le.1 hr.1
    have h6 : x.val.toNat ≤ 90 := UInt32.le_iff_toNat_le.1 hr.2
    have h7 := congrArg UInt32.toNat h4
    rw [UInt32.toNat_add] at h7
    have h8 : (x.val.toNat + 32) % 2 ^ 32 = 0 := h7
    omega
  · exact h0

theorem nul_not_mem {v w : List Char} (h : lowerCase v = lowerCase w) (hw : '\x00' ∉ w) :
    '\x00' ∉ v := by
  intro hm
  have : '\x00' ∈ lowerCase v := by
    rw [lowerCase, List.mem_map]; exact ⟨_, hm, by decide⟩
  rw [h, lowerCase, List.mem_map] at this
  obtain ⟨x, hx, h2⟩ := this
  exact toLower_ne_nul (fun hx0 => hw (hx0 ▸ hx)) h2

theorem ieq_eq {v : List Char} (hv : '\x00' ∉ v) (lit : String) (hl : '\x00' ∉ lit.toList) :
    ieq v lit = decide (lowerCase v <+: lowerCase lit.toList) := by
  rw [ieq, C12_iEquals_is_prefix v lit.toList [] hv hl]
  show (some (decide (lowerCase v <+: lowerCase lit.toList)) == some true) = _
  cases decide (lowerCase v <+: lowerCase lit.toList) <;> rfl

/-! ### command line -/

theorem set_iff : ∀ (fs : Fields α L) (vs : List (Option (Val L))) (key : String) (t : List Char),
    vs.length = (fieldList fs).length → ((fieldList fs).map Prod.fst).Nodup →
    ∀ d s, (key, d, s) ∈ fieldList fs →
    ((∃ ws, set fs vs key t = .ok ws) ↔ ∃ v, translateStr s t = .ok v)
  | .nil, vs, key, t, hl, hn, d, s, hm => by simp [fieldList] at hm
  | .cons k d' s' r, vs, key, t, hl, hn, d, s, hm => by
    cases vs with
    | nil => simp [fieldList] at hl
    | cons v vs =>
      simp only [fieldList, List.map_cons, List.nodup_cons] at hn
      rw [Schema.set]
      by_cases hk : key = k
      · subst hk
        rw [if_pos rfl]
        have : s = s' := by
          simp only [fieldList, List.mem_cons, Prod.mk.injEq] at hm
          rcases hm with h | h
          · exact h.2.2
          · exact absurd (List.mem_map.2 ⟨_, h, rfl⟩) hn.1
        subst this
        cases translateStr s t <;> simp
      · rw [if_neg hk]
        have hm' : (key, d, s) ∈ fieldList r := by
          simp only [fieldList, List.mem_cons, Prod.mk.injEq] at hm
          rcases hm with h | h
          · exact absurd h.1 hk
          · exact h
        have ih := set_iff r vs key t (by simpa [fieldList] using hl) hn.2 d s hm'
        rw [← ih]
        cases set r vs key t <;> simp

/-- What the first `n` of the keys do. -/
theorem applyCmd_iff (fs : Fields α L) (present : String → Option (List Char))
    (hn : ((fieldList fs).map Prod.fst).Nodup) :
    ∀ (ks : List String), ks.Nodup → (∀ k ∈ ks, ∃ d s, (k, d, s) ∈ fieldList fs) →
    ∀ (vs vs' : List (Option (Val L))), vs.length = (fieldList fs).length →
    (applyCmd fs present ks vs = .ok vs' ↔
      vs'.length = vs.length ∧
      ∀ (i : Nat) (k : String) (d : Kind L) (s : Schema α L),
        (fieldList fs)[i]? = some (k, d, s) →
        if k ∈ ks then
          match present k with
          | some t => ∃ v, translateStr s t = .ok v ∧ vs'[i]? = some (some v)
          | none => vs'[i]? = vs[i]?
        else vs'[i]? = vs[i]?) := by
  have first : ∀ (i : Nat) (k : String) (d : Kind L) (s : Schema α L),
      (fieldList fs)[i]? = some (k, d, s) →
      ∀ j, j < i → ∀ q : String × Kind L × Schema α L, (fieldList fs)[j]? = some q → q.1 ≠ k := by
    intro i k d s hi j hj q hq he
    have hj' := (List.getElem?_eq_some_iff.1 hq)
    have hi' := (List.getElem?_eq_some_iff.1 hi)
    have h1 : ((fieldList fs).map Prod.fst)[j]'(by simpa using hj'.1) =
        ((fieldList fs).map Prod.fst)[i]'(by simpa using hi'.1) := by
      rw [List.getElem_map, List.getElem_map, hj'.2, hi'.2]; exact he
    have := (hn.getElem_inj_iff).1 h1
    omega
  intro ks
  induction ks with
  | nil =>
    intro _ _ vs vs' hl
    simp only [applyCmd, Except.ok.injEq, List.not_mem_nil, if_false]
    constructor
    · rintro rfl; exact ⟨rfl, fun _ _ _ _ _ => rfl⟩
    · rintro ⟨h1, h2⟩
      apply List.ext_getElem?
      intro i
      by_cases hi : i < (fieldList fs).length
      · exact (h2 i _ _ _ (List.getElem?_eq_getElem hi)).symm
      · rw [List.getElem?_eq_none (by omega), List.getElem?_eq_none (by omega)]
  | cons k0 ks ih =>
    intro hnk hks vs vs' hl
    rw [List.nodup_cons] at hnk
    have ih' := ih hnk.2 (fun k hk => hks k (List.mem_cons_of_mem _ hk))
    rw [applyCmd]
    cases hp : present k0 with
    | none =>
      simp only
      rw [ih' vs vs' hl]
      apply and_congr_right
      intro _
      constructor
      · intro h i k d s hi
        have := h i k d s hi
        by_cases hk0 : k = k0
        · subst hk0
          rw [if_neg hnk.1] at this
          rw [if_pos List.mem_cons_self, hp]
          exact this
        · simpa [hk0] using this
      · intro h i k d s hi
        have := h i k d s hi
        by_cases hk0 : k = k0
        · subst hk0
          rw [if_pos List.mem_cons_self, hp] at this
          rw [if_neg hnk.1]
          exact this
        · simpa [hk0] using this
    | some t =>
      simp only
      obtain ⟨d0, s0, hm0⟩ := hks k0 List.mem_cons_self
      obtain ⟨i0, hi0⟩ := List.mem_iff_getElem?.1 hm0
      have hset := set_iff fs vs k0 t hl hn d0 s0 hm0
      cases hs : set fs vs k0 t with
      | error x =>
        simp only [hs] at hset
        simp only [reduceCtorEq, false_iff]
        rintro ⟨_, h⟩
        have := h i0 k0 d0 s0 hi0
        rw [if_pos List.mem_cons_self, hp] at this
        obtain ⟨v, hv, _⟩ := this
        obtain ⟨ws, hws⟩ := hset.2 ⟨v, hv⟩
        cases hws
      | ok ws =>
        simp only
        obtain ⟨h1, h2, h3⟩ := set_spec fs vs ws k0 t hl hs
        rw [ih' ws vs' (by omega), h1]
        apply and_congr_right
        intro _
        constructor
        · intro h i k d s hi
          have := h i k d s hi
          by_cases hk0 : k = k0
          · subst hk0
            rw [if_neg hnk.1] at this
            rw [if_pos List.mem_cons_self, hp]
            obtain ⟨v, hv, hv2⟩ := (h3 i k d s hi).1 rfl (first i k d s hi)
            exact ⟨v, hv, this.trans hv2⟩
          · rw [(h3 i k d s hi).2 hk0] at this
            simpa [hk0] using this
        · intro h i k d s hi
          have := h i k d s hi
          by_cases hk0 : k = k0
          · subst hk0
            rw [if_pos List.mem_cons_self, hp] at this
            rw [if_neg hnk.1]
            obtain ⟨v, hv, hv2⟩ := (h3 i k d s hi).1 rfl (first i k d s hi)
            obtain ⟨v', hv', hv2'⟩ := this
            rw [hv] at hv'
            cases hv'
            rw [hv2, hv2']
          · rw [(h3 i k d s hi).2 hk0]
            simpa [hk0] using this

theorem cmdKeys_sublist : ∀ (fs : Fields α L), (cmdKeys fs).Sublist ((fieldList fs).map Prod.fst)
  | .nil => by simp [cmdKeys]
  | .cons k d (.value _ _ _) r => by
    simp only [cmdKeys, fieldList, List.map_cons]
    exact (cmdKeys_sublist r).cons_cons k
  | .cons k d (.array _ _ _ _) r => by
    simp only [cmdKeys, fieldList, List.map_cons]
    exact (cmdKeys_sublist r).cons k
  | .cons k d (.table _ _) r => by
    simp only [cmdKeys, fieldList, List.map_cons]
    exact (cmdKeys_sublist r).cons k

/-- The key of a field is a command line key iff the field is a value. -/
theorem mem_cmdKeys : ∀ (fs : Fields α L), ((fieldList fs).map Prod.fst).Nodup →
    ∀ (k : String) (d : Kind L) (s : Schema α L), (k, d, s) ∈ fieldList fs →
    (k ∈ cmdKeys fs ↔ ∃ c f v, s = .value c f v)
  | .nil, _, k, d, s, h => by simp [fieldList] at h
  | .cons k' d' s' r, hn, k, d, s, h => by
    simp only [fieldList, List.map_cons, List.nodup_cons] at hn
    simp only [fieldList, List.mem_cons, Prod.mk.injEq] at h
    by_cases hk : k = k'
    · subst hk
      have hs : s = s' := by
        rcases h with h | h
        · exact h.2.2
        · exact absurd (List.mem_map.2 ⟨_, h, rfl⟩) hn.1
      subst hs
      have hnot : k ∉ cmdKeys r := fun hm => hn.1 ((cmdKeys_sublist r).subset hm)
      cases s with
      | value c f v => simp [cmdKeys]
      | array => simp [cmdKeys, hnot]
      | table => simp [cmdKeys, hnot]
    · have hm : (k, d, s) ∈ fieldList r := by
        rcases h with h | h
        · exact absurd h.1 hk
        · exact h
      have ih := mem_cmdKeys r hn.2 k d s hm
      rw [← ih]
      cases s' <;> simp [cmdKeys, hk]

theorem addTs_get (l : List (String × Node α)) (k : String) :
    (addTs l).get k = if k = "ts_checkpoint" ∧ (Node.tbl l).get "ts_checkpoint" = none
      then some (.arr []) else (Node.tbl l).get k := by
  unfold addTs
  by_cases h : (Node.tbl l).get "ts_checkpoint" = none
  · rw [if_pos h]
    simp only [Node.get, List.find?_append, Option.map_eq_none_iff] at h ⊢
    by_cases hk : k = "ts_checkpoint"
    · subst hk
      simp [h]
    · rw [if_neg (by simp [hk])]
      have : List.find? (fun p : String × Node α => decide (p.1 = k))
          [("ts_checkpoint", Node.arr [])] = none := by
        simp [Ne.symm hk]
      rw [this]; simp
  · rw [if_neg h, if_neg (by simp [h])]

/-- The values of the members after reading file and command line. -/
theorem readConfig_iff (fs : Fields α L) (valid : List (Option (Val L)) → Bool)
    (hn : ((fieldList fs).map Prod.fst).Nodup)
    (args : Option (String → Option (List Char))) (file : Option (List (String × Node α)))
    (vs : List (Option (Val L))) :
    readConfig fs valid args file = some vs ↔
    ∃ present l ws, args = some present ∧ file = some l ∧
      translate (.table fs valid) (addTs l) = .ok (.recd ws) ∧ vs.length = ws.length ∧
      ∀ (i : Nat) (k : String) (d : Kind L) (s : Schema α L),
        (fieldList fs)[i]? = some (k, d, s) →
        ∀ w r, ws[i]? = some w → vs[i]? = some r → AfterCmdLine s (present k) w r := by
  unfold readConfig
  cases args with
  | none => simp
  | some present =>
    cases file with
    | none => simp
    | some l =>
      simp only [Option.some.injEq, exists_and_left, exists_eq_left']
      cases ht : translate (.table fs valid) (addTs l) with
      | error => simp
      | ok v =>
        have hv : ∃ ws, v = .recd ws := by
          rw [translate_iff] at ht; cases ht; exact ⟨_, rfl⟩
        obtain ⟨ws, rfl⟩ := hv
        have hlen : ws.length = (fieldList fs).length := (C12_field fs valid _ ws ht).2.1
        have key := applyCmd_iff fs present hn (cmdKeys fs) ((cmdKeys_sublist fs).nodup hn)
          (fun k hk => by
            obtain ⟨q, hq, rfl⟩ := List.mem_map.1 ((cmdKeys_sublist fs).subset hk)
            exact ⟨q.2.1, q.2.2, hq⟩) ws vs hlen
        simp only [members, Except.ok.injEq, Val.recd.injEq, exists_eq_left']
        have e : (match applyCmd fs present (cmdKeys fs) ws with
            | .error _ => none
            | .ok vs => some vs) = some vs ↔ applyCmd fs present (cmdKeys fs) ws = .ok vs := by
          cases applyCmd fs present (cmdKeys fs) ws <;> simp
        refine (e.trans key).trans ?_
        apply and_congr_right
        intro hl
        apply forall_congr'; intro i
        apply forall_congr'; intro k
        apply forall_congr'; intro d
        apply forall_congr'; intro s
        apply forall_congr'; intro hi
        have hilt : i < (fieldList fs).length := (List.getElem?_eq_some_iff.1 hi).1
        have h1 : ws[i]? = some ws[i] := List.getElem?_eq_getElem (by omega)
        have h2 : vs[i]? = some vs[i] := List.getElem?_eq_getElem (by omega)
        have hmem := mem_cmdKeys fs hn k d s (List.mem_of_getElem? hi)
        rw [h1, h2]
        simp only [Option.some.injEq, forall_eq']
        cases s with
        | value c f v =>
          rw [if_pos (hmem.2 ⟨c, f, v, rfl⟩)]
          cases hp : present k with
          | none => simp [AfterCmdLine]
          | some t =>
            simp only [AfterCmdLine, translateStr]
            cases hf : f t with
            | none => simp
            | some x =>
              by_cases hx : v x = true
              · simp [hx]
              · simp [hx]
        | array of mn mx v =>
          rw [if_neg (fun h => by obtain ⟨_, _, _, h⟩ := hmem.1 h; cases h)]
          cases hp : present k <;> simp [AfterCmdLine]
        | table ff v =>
          rw [if_neg (fun h => by obtain ⟨_, _, _, h⟩ := hmem.1 h; cases h)]
          cases hp : present k <;> simp [AfterCmdLine]

theorem memberOf_eq : ∀ (fs : Fields α L) (vs : List (Option (Val L))),
    vs.length = (fieldList fs).length → ((fieldList fs).map Prod.fst).Nodup →
    ∀ (i : Nat) (k : String) (d : Kind L) (s : Schema α L), (fieldList fs)[i]? = some (k, d, s) →
    vs[i]? = some (memberOf fs vs k)
  | .nil, vs, _, _, i, k, d, s, h => by simp [fieldList] at h
  | .cons k' d' s' r, vs, hl, hn, i, k, d, s, h => by
    cases vs with
    | nil => simp [fieldList] at hl
    | cons v vs =>
      simp only [fieldList, List.map_cons, List.nodup_cons] at hn
      cases i with
      | zero =>
        simp only [fieldList, List.getElem?_cons_zero, Option.some.injEq, Prod.mk.injEq] at h
        simp [memberOf, h.1]
      | succ i =>
        simp only [fieldList, List.getElem?_cons_succ] at h
        have hne : k' ≠ k := by
          rintro rfl
          exact hn.1 (List.mem_map.2 ⟨_, List.mem_of_getElem? h, rfl⟩)
        simp only [memberOf, if_neg hne, List.getElem?_cons_succ]
        exact memberOf_eq r vs (by simpa [fieldList] using hl) hn.2 i k d s h

/-- Members of a translated table. -/
theorem member_translate (fs : Fields α L) (hn : ((fieldList fs).map Prod.fst).Nodup)
    (n : Node α) (vs : List (Option (Val L))) (h : translateFields fs n = .ok vs)
    {k : String} {d : Kind L} {s : Schema α L} (hm : (k, d, s) ∈ fieldList fs) :
    match n.get k with
    | some m => ∃ v, translate s m = .ok v ∧ memberOf fs vs k = some v
    | none => match d with
      | .required => False
      | .default v => memberOf fs vs k = some v
      | .optional => memberOf fs vs k = none := by
  obtain ⟨i, hi⟩ := List.mem_iff_getElem?.1 hm
  have h1 := fields_spec fs n vs ((translateFields_iff fs n vs).1 h)
  have h2 := memberOf_eq fs vs h1.1 hn i k d s hi
  have h3 := h1.2 i k d s hi
  rw [h2] at h3
  cases hg : n.get k with
  | some m => rw [hg] at h3; simpa using h3
  | none =>
    rw [hg] at h3
    cases d with
    | required => exact h3
    | default v => simpa using h3
    | optional => simpa using h3

theorem member_read (fs : Fields α L) (valid : List (Option (Val L)) → Bool)
    (hn : ((fieldList fs).map Prod.fst).Nodup)
    {args : Option (String → Option (List Char))} {file : Option (List (String × Node α))}
    {vs : List (Option (Val L))} (h : readConfig fs valid args file = some vs)
    {k : String} {d : Kind L} {s : Schema α L} (hm : (k, d, s) ∈ fieldList fs) :
    ∃ present l w, args = some present ∧ file = some l ∧
      (match (addTs l).get k with
      | some m => ∃ v, translate s m = .ok v ∧ w = some v
      | none => match d with
        | .required => False
        | .default v => w = some v
        | .optional => w = none) ∧ AfterCmdLine s (present k) w (memberOf fs vs k) := by
  obtain ⟨present, l, ws, h1, h2, h3, h4, h5⟩ := (readConfig_iff fs valid hn args file vs).1 h
  have hlen : ws.length = (fieldList fs).length := (C12_field fs valid _ ws h3).2.1
  obtain ⟨i, hi⟩ := List.mem_iff_getElem?.1 hm
  have h3' : translateFields fs (addTs l) = .ok ws := by
    rw [translate] at h3
    split at h3
    · cases h3
    · rename_i us hus
      split at h3
      · cases h3; exact hus
      · cases h3
  refine ⟨present, l, memberOf fs ws k, h1, h2, member_translate fs hn _ ws h3' hm, ?_⟩
  exact h5 i k d s hi _ _ (memberOf_eq fs ws hlen hn i k d s hi)
    (memberOf_eq fs vs (by omega) hn i k d s hi)

/-- A scalar member is absent (if optional), the default, or an accepted value. -/
theorem member_value (fs : Fields α L) (valid : List (Option (Val L)) → Bool)
    (hn : ((fieldList fs).map Prod.fst).Nodup)
    {args : Option (String → Option (List Char))} {file : Option (List (String × Node α))}
    {vs : List (Option (Val L))} (h : readConfig fs valid args file = some vs)
    {k : String} {d : Kind L} {c : α → Option L} {f : List Char → Option L} {ok : L → Bool}
    (hm : (k, d, Schema.value c f ok) ∈ fieldList fs) :
    (∃ x, memberOf fs vs k = some (.leaf x) ∧ ok x = true ∧
      ((∃ a, c a = some x) ∨ ∃ t, f t = some x)) ∨
    (∃ v, d = .default v ∧ memberOf fs vs k = some v) ∨ (d = .optional ∧ memberOf fs vs k = none) := by
  obtain ⟨present, l, w, h1, h2, h3, h4⟩ := member_read fs valid hn h hm
  rw [AfterCmdLine.eq_def] at h4
  cases hp : present k with
  | some t =>
    rw [hp] at h4
    obtain ⟨x, h5, h6, h7⟩ := h4
    exact Or.inl ⟨x, h7, h6, Or.inr ⟨t, h5⟩⟩
  | none =>
    rw [hp] at h4
    simp only at h4
    rw [h4]
    cases hg : (addTs l).get k with
    | some m =>
      rw [hg] at h3
      obtain ⟨v, hv, hw⟩ := h3
      rw [translate_iff] at hv
      cases hv with
      | value h7 h8 => exact Or.inl ⟨_, hw, h8, Or.inl ⟨_, h7⟩⟩
    | none =>
      rw [hg] at h3
      cases d with
      | required => exact h3.elim
      | default v => exact Or.inr (Or.inl ⟨v, rfl, h3⟩)
      | optional => exact Or.inr (Or.inr ⟨rfl, h3⟩)

/-- The same inside a nested table. -/
theorem member_value' (fs : Fields α L) (hn : ((fieldList fs).map Prod.fst).Nodup)
    {n : Node α} {vs : List (Option (Val L))} (h : translateFields fs n = .ok vs)
    {k : String} {d : Kind L} {c : α → Option L} {f : List Char → Option L} {ok : L → Bool}
    (hm : (k, d, Schema.value c f ok) ∈ fieldList fs) :
    (∃ x, memberOf fs vs k = some (.leaf x) ∧ ok x = true ∧
      ((∃ a, c a = some x) ∨ ∃ t, f t = some x)) ∨
    (∃ v, d = .default v ∧ memberOf fs vs k = some v) ∨ (d = .optional ∧ memberOf fs vs k = none) := by
  have h3 := member_translate fs hn n vs h hm
  cases hg : n.get k with
  | some m =>
    rw [hg] at h3
    obtain ⟨v, hv, hw⟩ := h3
    rw [translate_iff] at hv
    cases hv with
    | value h7 h8 => exact Or.inl ⟨_, hw, h8, Or.inl ⟨_, h7⟩⟩
  | none =>
    rw [hg] at h3
    cases d with
    | required => exact h3.elim
    | default v => exact Or.inr (Or.inl ⟨v, rfl, h3⟩)
    | optional => exact Or.inr (Or.inr ⟨rfl, h3⟩)

/-- A table member is absent (if optional) or a translated table. -/
theorem member_table (fs : Fields α L) (valid : List (Option (Val L)) → Bool)
    (hn : ((fieldList fs).map Prod.fst).Nodup)
    {args : Option (String → Option (List Char))} {file : Option (List (String × Node α))}
    {vs : List (Option (Val L))} (h : readConfig fs valid args file = some vs)
    {k : String} {d : Kind L} {ff : Fields α L} {ok : List (Option (Val L)) → Bool}
    (hm : (k, d, Schema.table ff ok) ∈ fieldList fs) (hd : ∀ v, d ≠ .default v) :
    (∃ n us, translateFields ff n = .ok us ∧ memberOf fs vs k = some (.recd us)) ∨
    (d = .optional ∧ memberOf fs vs k = none) := by
  obtain ⟨present, l, w, h1, h2, h3, h4⟩ := member_read fs valid hn h hm
  have h4' : memberOf fs vs k = w := by
    cases hp : present k <;> rw [hp] at h4 <;> exact h4
  rw [h4']
  cases hg : (addTs l).get k with
  | some m =>
    rw [hg] at h3
    obtain ⟨v, hv, hw⟩ := h3
    rw [translate_iff] at hv
    cases hv with
    | table h7 h8 => exact Or.inl ⟨m, _, (translateFields_iff _ _ _).2 h7, hw⟩
  | none =>
    rw [hg] at h3
    cases d with
    | required => exact h3.elim
    | default v => exact absurd rfl (hd v)
    | optional => exact Or.inr ⟨rfl, h3⟩

end Tandem.Main
