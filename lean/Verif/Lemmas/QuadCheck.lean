import Verif.Model.QuadTable
/-! # Integer computation of the moments of tabulated rules (evaluated by the kernel) -/
namespace Tandem.QuadTable

/-- Point and weight in natural numbers. -/
structure Pt2 where
  x : Nat
  y : Nat
  w : Nat
  deriving DecidableEq

/-- Point and weight in natural numbers. -/
structure Pt3 where
  x : Nat
  y : Nat
  z : Nat
  w : Nat
  deriving DecidableEq

def toN : Int → Option Nat
  | .ofNat n => some n
  | .negSucc _ => none

def norm2 (s : Int) : List (List Int) → List Int → Option (List Pt2)
  | [], [] => some []
  | [x, y] :: P, w :: W => do
    let x ← toN (x + s); let y ← toN (y + s); let w ← toN w
    let l ← norm2 s P W
    pure (⟨x, y, w⟩ :: l)
  | _, _ => none

def norm3 (s : Int) : List (List Int) → List Int → Option (List Pt3)
  | [], [] => some []
  | [x, y, z] :: P, w :: W => do
    let x ← toN (x + s); let y ← toN (y + s); let z ← toN (z + s); let w ← toN w
    let l ← norm3 s P W
    pure (⟨x, y, z, w⟩ :: l)
  | _, _ => none

def normWV2 (r : Raw) : Option (List Pt2) := norm2 (Int.ofNat (Nat.pow 10 r.digits)) r.points r.weights
def normWV3 (r : Raw) : Option (List Pt3) := norm3 (Int.ofNat (Nat.pow 10 r.digits)) r.points r.weights
def normJS (r : Raw) : Option (List Pt3) := norm3 0 r.points r.weights

def sum2 (i j : Nat) : List Pt2 → Nat
  | [] => 0
  | ⟨x, y, w⟩ :: l => Nat.add (Nat.mul (Nat.mul w (Nat.pow x i)) (Nat.pow y j)) (sum2 i j l)

def sum3 (i j k : Nat) : List Pt3 → Nat
  | [] => 0
  | ⟨x, y, z, w⟩ :: l =>
    Nat.add (Nat.mul (Nat.mul (Nat.mul w (Nat.pow x i)) (Nat.pow y j)) (Nat.pow z k)) (sum3 i j k l)

def fac : Nat → Nat
  | 0 => 1
  | n + 1 => Nat.mul (n + 1) (fac n)

/-- `E·|a - b| ≤ c`. -/
def close (E a b c : Nat) : Bool := Nat.ble (Nat.mul E (Nat.add (Nat.sub a b) (Nat.sub b a))) c

def ok2 (S V E : Nat) (t : List Pt2) (i j : Nat) : Bool :=
  close E (Nat.mul (sum2 i j t) (fac (i + j + 2)))
    (Nat.mul (Nat.mul (fac i) (fac j)) (Nat.mul V (Nat.pow S (i + j))))
    (Nat.mul (Nat.mul V (Nat.pow S (i + j))) (fac (i + j + 2)))

def ok3 (S V E : Nat) (t : List Pt3) (i j k : Nat) : Bool :=
  close E (Nat.mul (sum3 i j k t) (fac (i + j + k + 3)))
    (Nat.mul (Nat.mul (fac i) (Nat.mul (fac j) (fac k))) (Nat.mul V (Nat.pow S (i + j + k))))
    (Nat.mul (Nat.mul V (Nat.pow S (i + j + k))) (fac (i + j + k + 3)))

def allBelow (p : Nat → Bool) : Nat → Bool
  | 0 => true
  | n + 1 => p n && allBelow p n

theorem allBelow_iff (p : Nat → Bool) (n : Nat) : allBelow p n = true ↔ ∀ i, i < n → p i = true := by
  induction n with
  | zero => exact ⟨fun _ i hi => absurd hi (Nat.not_lt_zero i), fun _ => rfl⟩
  | succ n ih =>
    rw [allBelow, Bool.and_eq_true, ih]
    constructor
    · rintro ⟨h1, h2⟩ i hi
      rcases Nat.lt_succ_iff_lt_or_eq.1 hi with h | h
      · exact h2 i h
      · exact h ▸ h1
    · intro h
      exact ⟨h n (Nat.lt_succ_self n), fun i hi => h i (Nat.lt_succ_of_lt hi)⟩

def all2 (S V E : Nat) (t : List Pt2) (N : Nat) : Bool :=
  allBelow (fun i => allBelow (fun j => ok2 S V E t i j) (N + 1 - i)) (N + 1)

def row3 (S V E : Nat) (t : List Pt3) (N i : Nat) : Bool :=
  allBelow (fun j => allBelow (fun k => ok3 S V E t i j k) (N + 1 - i - j)) (N + 1 - i)

def all3 (S V E : Nat) (t : List Pt3) (N : Nat) : Bool :=
  allBelow (fun i => row3 S V E t N i) (N + 1)

/-- Positive weights, points inside the simplex. -/
def all2In (S : Nat) (t : List Pt2) : Bool :=
  t.all fun p => Nat.blt 0 p.w && Nat.ble (Nat.add p.x p.y) S

/-- Positive weights, points inside the simplex. -/
def all3In (S : Nat) (t : List Pt3) : Bool :=
  t.all fun p => Nat.blt 0 p.w && Nat.ble (Nat.add (Nat.add p.x p.y) p.z) S

end Tandem.QuadTable
