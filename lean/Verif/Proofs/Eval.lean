import Verif.Model.Tables
import Mathlib.Algebra.BigOperators.Fin

/-! # Kernel-friendly arithmetic on tables of naturals, and its lifting to `Fq`

Definitions by recursors, so that `decide +kernel` evaluates them with the kernel's arithmetic.
-/

namespace Poseidon

/-- `l[i]`, `0` outside. -/
def nth (l : List Nat) (i : Nat) : Nat :=
  List.rec (motive := fun _ => Nat → Nat) (fun _ => 0)
    (fun x _ ih n => Nat.rec (motive := fun _ => Nat) x (fun k _ => ih k) n) l i

/-- `∑ i < n, f i` -/
def sumN (n : Nat) (f : Nat → Nat) : Nat :=
  Nat.rec (motive := fun _ => Nat) 0 (fun k ih => ih + f k) n

/-- `∀ i < n, p i` -/
def allN (n : Nat) (p : Nat → Bool) : Bool :=
  Nat.rec (motive := fun _ => Bool) true (fun k ih => p k && ih) n

/-- Evaluate all entries of a list before passing it on. -/
def forceL {α : Type} (l : List Nat) (f : List Nat → α) : α :=
  List.rec (motive := fun _ => (List Nat → α) → α) (fun f => f [])
    (fun x _ ih f => force x fun x' => ih fun xs => f (x' :: xs)) l f

/-- `[f 0, …, f (n-1)]` -/
def tabN (n : Nat) (f : Nat → Nat) : List Nat := (List.range n).map f

theorem nth_eq (l : List Nat) (i : Nat) : nth l i = l.getD i 0 := by
  induction l generalizing i with
  | nil => simp [nth]
  | cons x xs ih =>
    cases i with
    | zero => rfl
    | succ i => exact (ih i).trans (by simp)

theorem nth_lt {l : List Nat} {i : Nat} (h : i < l.length) : nth l i = l[i] := by
  rw [nth_eq]; simp [h]

theorem nth_tabN {n i : Nat} (f : Nat → Nat) (h : i < n) : nth (tabN n f) i = f i := by
  rw [nth_lt (by simpa [tabN] using h)]; simp [tabN]

theorem allN_iff {n : Nat} {p : Nat → Bool} : allN n p = true ↔ ∀ i, i < n → p i = true := by
  induction n with
  | zero => simp [allN]
  | succ n ih =>
    have : allN (n + 1) p = (p n && allN n p) := rfl
    rw [this, Bool.and_eq_true, ih]
    constructor
    · rintro ⟨h1, h2⟩ i hi
      rcases Nat.lt_succ_iff_lt_or_eq.1 hi with h | h
      · exact h2 i h
      · rw [h]; exact h1
    · intro h; exact ⟨h n (by omega), fun i hi => h i (by omega)⟩

theorem forceL_eq {α : Type} (l : List Nat) (f : List Nat → α) : forceL l f = f l := by
  induction l generalizing f with
  | nil => rfl
  | cons x xs ih =>
    show force x (fun x' => forceL xs fun ys => f (x' :: ys)) = _
    rw [force_eq]
    exact ih _

theorem sumN_cast {K : Type _} [AddCommMonoidWithOne K] (n : Nat) (f : Nat → Nat) :
    ((sumN n f : Nat) : K) = ∑ i : Fin n, (f i : K) := by
  induction n with
  | zero => simp [sumN]
  | succ n ih =>
    have : sumN (n + 1) f = sumN n f + f n := rfl
    rw [this, Nat.cast_add, ih, Fin.sum_univ_castSucc]
    rfl

/-- `2^{-256} mod q` -/
def montInv : Nat := 3482466379256973933331601287759811764685972354380176549708408303012390300674

theorem montInv_spec : 2 ^ 256 * montInv % q = 1 := by decide +kernel

/-- The canonical residue of a table entry. -/
def Limbs.canon (l : Limbs) : Nat := l.raw * montInv % q

theorem cast_mod (a : Nat) : ((a % q : Nat) : Fq) = (a : Fq) := by
  rw [ZMod.natCast_mod]

theorem cast_eq_of_mod {a b : Nat} (h : a % q = b % q) : (a : Fq) = (b : Fq) := by
  rw [← cast_mod a, h, cast_mod]

theorem cast_inj_lt {a b : Nat} (ha : a < q) (hb : b < q) (h : (a : Fq) = (b : Fq)) : a = b := by
  have := (ZMod.natCast_eq_natCast_iff _ _ _).1 h
  rwa [Nat.ModEq, Nat.mod_eq_of_lt ha, Nat.mod_eq_of_lt hb] at this

theorem Limbs.toFq_eq (l : Limbs) : l.toFq = (l.canon : Fq) := by
  have h1 : ((2 ^ 256 : Nat) : Fq) * (montInv : Fq) = 1 := by
    rw [← Nat.cast_mul, ← cast_mod, montInv_spec, Nat.cast_one]
  have h2 : ((2 ^ 256 : Nat) : Fq)⁻¹ = (montInv : Fq) := inv_eq_of_mul_eq_one_right h1
  rw [Limbs.toFq, h2, Limbs.canon, cast_mod, Nat.cast_mul]

/-- Canonical residues of a table. -/
def canons (l : List Limbs) : List Nat := l.map Limbs.canon

theorem vecOf_get (n : Nat) (l : List Limbs) (h : l.length = n) (i : Nat) (hi : i < n) :
    (vecOf n l h)[i] = (nth (canons l) i : Fq) := by
  have hi' : i < l.length := by omega
  have : (vecOf n l h)[i] = l[i].toFq := by simp [vecOf]
  rw [this, Limbs.toFq_eq, nth_lt (by simpa [canons] using hi')]
  simp [canons]

end Poseidon
