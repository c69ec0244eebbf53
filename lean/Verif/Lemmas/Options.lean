import Verif.Lemmas.Main
import Verif.Spec.Options
import Verif.Props.Main
/-! # Lemmas about options -/
namespace Tandem.Main
open Tandem.Schema Tandem.Spec

variable {α : Type}

/-- What happens if an option is missing, in the schema. -/
def Agrees (d : Kind Leaf) (m : IfMissing Leaf) : Prop :=
  match d, m with
  | .required, .required => True
  | .optional, .optional => True
  | .default v, .otherwise x => v = .leaf x
  | _, _ => False

theorem addTs_get_ne (l : List (String × Node α)) {k : String} (hk : k ≠ "ts_checkpoint") :
    (addTs l).get k = (Node.tbl l).get k := by
  rw [addTs_get, if_neg (fun h => hk h.1)]

/-- A scalar member of the outermost table. -/
theorem follows_outer (fs : Fields α Leaf) (valid : List (Option (Val Leaf)) → Bool)
    (hn : ((fieldList fs).map Prod.fst).Nodup)
    {present : String → Option (List Char)} {l : List (String × Node α)}
    {vs : List (Option (Val Leaf))} (h : readConfig fs valid (some present) (some l) = some vs)
    (hnul : ∀ k t, present k = some t → '\x00' ∉ t)
    (o : ScalarOption α) (hk : o.key ≠ "ts_checkpoint")
    {d : Kind Leaf} {c : α → Option Leaf} {f : List Char → Option Leaf} {ok : Leaf → Bool}
    (hm : (o.key, d, Schema.value c f ok) ∈ fieldList fs)
    (hc : ∀ a x, c a = some x → ok x = true → o.fromFile a = some x)
    (hf : ∀ t x, '\x00' ∉ t → f t = some x → ok x = true → o.fromArg t = some x)
    (hd : Agrees d o.missing) :
    Follows o (present o.key) ((Node.tbl l).get o.key) (memberOf fs vs o.key) := by
  obtain ⟨present', l', w, h1, h2, h3, h4⟩ := member_read fs valid hn h hm
  cases h1; cases h2
  rw [addTs_get_ne l hk] at h3
  unfold Follows
  rw [AfterCmdLine.eq_def] at h4
  cases hp : present o.key with
  | some t =>
    rw [hp] at h4
    obtain ⟨x, h5, h6, h7⟩ := h4
    exact ⟨x, hf t x (hnul _ _ hp) h5 h6, h7⟩
  | none =>
    rw [hp] at h4
    simp only at h4
    rw [h4]
    cases hg : (Node.tbl l).get o.key with
    | some m =>
      rw [hg] at h3
      obtain ⟨v, hv, hw⟩ := h3
      rw [translate_iff] at hv
      cases hv with
      | value h7 h8 => exact ⟨_, _, rfl, hc _ _ h7 h8, hw⟩
    | none =>
      rw [hg] at h3
      cases hm : o.missing with
      | required => rw [hm] at hd; cases d <;> first | exact h3 | exact hd
      | optional => rw [hm] at hd; cases d <;> first | exact h3 | exact hd.elim
      | otherwise x =>
        rw [hm] at hd
        cases d with
        | default v =>
          have : v = .leaf x := hd
          subst this; exact h3
        | _ => exact hd.elim

/-- A scalar member of a nested table. -/
theorem follows_inner (fs : Fields α Leaf) (hn : ((fieldList fs).map Prod.fst).Nodup)
    {n : Node α} {vs : List (Option (Val Leaf))} (h : translateFields fs n = .ok vs)
    (o : ScalarOption α)
    {d : Kind Leaf} {c : α → Option Leaf} {f : List Char → Option Leaf} {ok : Leaf → Bool}
    (hm : (o.key, d, Schema.value c f ok) ∈ fieldList fs)
    (hc : ∀ a x, c a = some x → ok x = true → o.fromFile a = some x)
    (hd : Agrees d o.missing) :
    Follows o none (n.get o.key) (memberOf fs vs o.key) := by
  have h3 := member_translate fs hn n vs h hm
  unfold Follows
  cases hg : n.get o.key with
  | some m =>
    rw [hg] at h3
    obtain ⟨v, hv, hw⟩ := h3
    rw [translate_iff] at hv
    cases hv with
    | value h7 h8 => exact ⟨_, _, rfl, hc _ _ h7 h8, hw⟩
  | none =>
    rw [hg] at h3
    cases hm : o.missing with
    | required => rw [hm] at hd; cases d <;> first | exact h3 | exact hd
    | optional => rw [hm] at hd; cases d <;> first | exact h3 | exact hd.elim
    | otherwise x =>
      rw [hm] at hd
      cases d with
      | default v =>
        have : v = .leaf x := hd
        subst this; exact h3
      | _ => exact hd.elim

/-- Words: a known word found by the converter is the word of the documentation. -/
theorem word_eq {β : Type} {words : List (String × β)} {conv : List Char → β} {unknown : β}
    {c : β → Leaf} {ok : Leaf → Bool} (hok : ok (c unknown) = false)
    (hconv : ∀ v, '\x00' ∉ v → conv v = (abbreviated words v).getD unknown)
    {t : List Char} {x : Leaf} (ht : '\x00' ∉ t) (hx : some (c (conv t)) = some x) (h : ok x = true) :
    (abbreviated words t).map c = some x := by
  cases hx
  rw [hconv t ht] at h ⊢
  cases ha : abbreviated words t with
  | none => rw [ha] at h; simp [hok] at h
  | some y => rfl

/-- A vector member. -/
theorem readsAll_real (e : Env α) : ∀ (l : List (Node α)) (vs : List (Val Leaf)),
    ReadsAll (realV e (fun _ => true)) l vs →
    ∃ (as : List α) (xs : List ℚ), l = as.map .leaf ∧ as.map e.real = xs.map some ∧
      vs = xs.map (fun x => .leaf (.real x))
  | _, _, .nil => ⟨[], [], rfl, rfl, rfl⟩
  | _, _, .cons (n := n) (v := v) h1 h2 => by
    obtain ⟨as, xs, g1, g2, g3⟩ := readsAll_real e _ _ h2
    cases h1 with
    | value h5 h6 =>
      rename_i a x
      beta_reduce at h5
      cases hr : e.real a with
      | none => rw [hr] at h5; cases h5
      | some q =>
        rw [hr] at h5
        cases h5
        exact ⟨a :: as, q :: xs, by rw [g1]; rfl, by simp [hr, g2], by rw [g3]; rfl⟩

theorem follows_vector (fs : Fields α Leaf) (valid : List (Option (Val Leaf)) → Bool)
    (hn : ((fieldList fs).map Prod.fst).Nodup)
    {present : String → Option (List Char)} {l : List (String × Node α)}
    {vs : List (Option (Val Leaf))} (h : readConfig fs valid (some present) (some l) = some vs)
    (e : Env α) (D : Nat) (dv : Option (List ℚ)) {k : String} (hk : k ≠ "ts_checkpoint")
    {d : Kind Leaf} (hm : (k, d, arrOf (realV e (fun _ => true)) D) ∈ fieldList fs)
    (hd : (d = .required ∧ dv = none) ∨
      ∃ xs, dv = some xs ∧ d = .default (.arr (xs.map (fun x => .leaf (.real x))))) :
    FollowsVector e D dv ((Node.tbl l).get k) (memberOf fs vs k) := by
  obtain ⟨present', l', w, h1, h2, h3, h4⟩ := member_read fs valid hn h hm
  cases h1; cases h2
  rw [addTs_get_ne l hk] at h3
  have h4' : memberOf fs vs k = w := by
    cases hp : present k <;> rw [hp] at h4 <;> exact h4
  rw [h4']
  unfold FollowsVector
  cases hg : (Node.tbl l).get k with
  | some m =>
    rw [hg] at h3
    obtain ⟨v, hv, hw⟩ := h3
    rw [translate_iff] at hv
    cases hv with
    | array h5 h6 h7 h8 =>
      obtain ⟨as, xs, g1, g2, g3⟩ := readsAll_real e _ _ h7
      refine ⟨as, xs, by rw [g1], g2, ?_, by rw [hw, g3]⟩
      have : as.length = xs.length := by simpa using congrArg List.length g2
      rw [g1, List.length_map] at h5 h6
      omega
  | none =>
    rw [hg] at h3
    rcases hd with ⟨rfl, _⟩ | ⟨xs, h5, rfl⟩
    · exact h3.elim
    · exact ⟨xs, h5, h3⟩

/-- An optional section. -/
theorem section_read (fs : Fields α Leaf) (valid : List (Option (Val Leaf)) → Bool)
    (hn : ((fieldList fs).map Prod.fst).Nodup)
    {present : String → Option (List Char)} {l : List (String × Node α)}
    {vs : List (Option (Val Leaf))} (h : readConfig fs valid (some present) (some l) = some vs)
    {k : String} {ff : Fields α Leaf} (hk : k ≠ "ts_checkpoint")
    (hm : (k, .optional, tableOf ff) ∈ fieldList fs) :
    match (Node.tbl l).get k with
    | none => memberOf fs vs k = none
    | some n => ∃ us, memberOf fs vs k = some (.recd us) ∧ translateFields ff n = .ok us := by
  obtain ⟨present', l', w, h1, h2, h3, h4⟩ := member_read fs valid hn h hm
  cases h1; cases h2
  rw [addTs_get_ne l hk] at h3
  have h4' : memberOf fs vs k = w := by
    cases hp : present k <;> rw [hp] at h4 <;> exact h4
  rw [h4']
  cases hg : (Node.tbl l).get k with
  | some m =>
    rw [hg] at h3
    obtain ⟨v, hv, hw⟩ := h3
    rw [translate_iff] at hv
    cases hv with
    | table h7 h8 => exact ⟨_, hw, (translateFields_iff _ _ _).2 h7⟩
  | none => rw [hg] at h3; exact h3

end Tandem.Main
