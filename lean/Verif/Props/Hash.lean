import Mathlib.Data.List.Induction
import Verif.Model.GMSHLexer
/-! # Property C10: incremental token hash -/
namespace Tandem.Hash
open Tandem.GMSHLexer

theorem fnv1aLen_append (s : List (BitVec 8)) (t : List (BitVec 8)) (n : Nat) (hn : n ≤ s.length) :
    fnv1aLen (s ++ t) n = fnv1aLen s n := by
  induction n with
  | zero => rfl
  | succ n ih =>
    simp only [fnv1aLen, ih (by omega), List.getElem?_append_left (show n < s.length by omega)]

/-- C10: hashing a string character by character, as the lexer does, gives the value that the
compile-time function (recursion on the length) computes for the whole string; in particular that
function never reads out of bounds. -/
theorem C10_running_eq_whole (s : List (BitVec 8)) : fnv1a s = some (running s) := by
  unfold fnv1a running
  induction s using List.reverseRecOn with
  | nil => rfl
  | append_singleton s c ih =>
    rw [List.length_append, List.length_singleton, List.foldl_append, List.foldl_cons, List.foldl_nil, fnv1aLen,
      fnv1aLen_append s [c] _ (Nat.le_refl _), ih]
    simp

/-- C10: the hashes of the section keywords are pairwise different. -/
theorem C10_keywords_distinct : (keywords.map (fun kw => running (bytes kw.1))).Nodup := by
  decide +kernel

/-- C10: hence the running hash of a keyword selects that keyword's token in the `switch`. -/
theorem C10_dispatch_keyword (kw : String × Tok) (h : kw ∈ keywords) :
    dispatch (running (bytes kw.1)) = kw.2 := by
  revert kw; decide +kernel

/-- C10: conversely, a keyword token is only produced for the keyword's own hash. -/
theorem C10_dispatch_only (h : BitVec 64) (t : Tok) (ht : dispatch h = t) (hu : t ≠ .unknownSection) :
    ∃ kw ∈ keywords, kw.2 = t ∧ h = running (bytes kw.1) := by
  unfold dispatch at ht
  split at ht
  · rename_i kw hk
    refine ⟨kw, List.mem_of_find?_eq_some hk, ht, ?_⟩
    have := List.find?_some hk
    simp only [decide_eq_true_eq] at this
    rw [C10_running_eq_whole] at this
    exact (Option.some.inj this).symm
  · exact absurd ht.symm hu

example : running (bytes "Nodes") ≠ fnv1a0 ∧ dispatch (running (bytes "Nodes")) = .nodes ∧
    dispatch (running (bytes "NodeData")) = .unknownSection := by decide +kernel

/-- Specification: the published FNV-1a hash of a byte string, in natural-number arithmetic
(offset basis 14695981039346656037, prime 1099511628211, xor first, then multiply modulo 2^64). -/
def fnv1aSpec (l : List Nat) : Nat :=
  l.foldl (fun h b => ((h ^^^ b) * 1099511628211) % 2 ^ 64) 14695981039346656037

theorem foldl_spec (l : List (BitVec 8)) (h : ∀ b ∈ l, b.toNat < 128) (a : BitVec 64) :
    (l.foldl fnv1aStep a).toNat =
      (l.map BitVec.toNat).foldl (fun h b => ((h ^^^ b) * 1099511628211) % 2 ^ 64) a.toNat := by
  induction l generalizing a with
  | nil => rfl
  | cons b l ih =>
    have hb : (b.signExtend 64).toNat = b.toNat := by
      have : b.msb = false := by
        rw [BitVec.msb_eq_decide]; have := h b (by simp); simp; omega
      rw [BitVec.signExtend_eq_setWidth_of_msb_false this]
      simp
      have := h b (by simp); omega
    rw [List.foldl_cons, ih (fun c hc => h c (by simp [hc])), List.map_cons, List.foldl_cons]
    have e : (fnv1aStep a b).toNat = ((a.toNat ^^^ b.toNat) * 1099511628211) % 2 ^ 64 := by
      rw [fnv1aStep, BitVec.toNat_mul, BitVec.toNat_xor, hb]
      have e2 : (1099511628211#64).toNat = 1099511628211 := by decide
      rw [e2]
    rw [e]

/-- C10: on ASCII strings the computed value is the published FNV-1a hash. -/
theorem C10_is_fnv1a (s : List (BitVec 8)) (h : ∀ b ∈ s, b.toNat < 128) :
    (running s).toNat = fnv1aSpec (s.map BitVec.toNat) :=
  foldl_spec s h fnv1a0

/-- Published test vectors. -/
example : running (bytes "a") = 0xaf63dc4c8601ec8c#64 ∧
    running (bytes "foobar") = 0x85944171f73967e8#64 := by decide +kernel

/-- C10: the six section names and the token each of them must produce. -/
theorem C10_section_tokens :
    dispatch (running (bytes "MeshFormat")) = .meshFormat ∧
    dispatch (running (bytes "EndMeshFormat")) = .endMeshFormat ∧
    dispatch (running (bytes "Nodes")) = .nodes ∧
    dispatch (running (bytes "EndNodes")) = .endNodes ∧
    dispatch (running (bytes "Elements")) = .elements ∧
    dispatch (running (bytes "EndElements")) = .endElements := by decide +kernel

end Tandem.Hash
