import Verif.Model.Basic
import Verif.Model.Field
import Mathlib.Algebra.BigOperators.Ring.Finset
import Mathlib.Algebra.Field.ZMod
import Mathlib.Algebra.MvPolynomial.Degrees
import Mathlib.Algebra.Polynomial.Eval.Coeff
import Mathlib.Data.Fintype.Pi

/-!
# Functions of many field elements

What it means that a function of `n` field elements, which may panic, behaves as a polynomial of total degree `D` in sums, and that it is not
related to its arguments by a polynomial of lower degree.
-/

namespace Poseidon

open MvPolynomial

/-- `h` never panics, and with `d` its values: let the `n` arguments be polynomials `φ` of total degree at most `m` in `k` parameters.  Then the sum, over
all values of the parameters, of the `l`-th power of `d` times any polynomial `P` of the parameters is zero, as soon as the degrees are below
`k (q - 1)`. -/
def SumsVanish (D : Nat) {n : Nat} (h : (Fin n → Fq) → R Fq) : Prop :=
  ∃ d : (Fin n → Fq) → Fq, (∀ x, h x = .ok (d x)) ∧
    ∀ (k m : Nat) (φ : Fin n → MvPolynomial (Fin k) Fq), (∀ a, (φ a).totalDegree ≤ m) →
      ∀ (P : MvPolynomial (Fin k) Fq) (l : Nat), P.totalDegree + l * (m * D) < (q - 1) * k →
        ∑ u : Fin k → Fq, eval u P * d (fun a => eval u (φ a)) ^ l = 0

/-- `h` never panics, and with `d` its values: let the arguments at the positions `p` be free (at least one) and the others fixed to those of `x`.
Take any relation `F(u, y)` between the free arguments `u` and the value `y`: a nonzero polynomial in `y` whose coefficients are polynomials in `u` of
degree at most `dx`, less than `D`.  If every free argument is drawn from `S`, the relation holds with probability at most
`(dx + degree in y * D) / |S|`. -/
def NoRelation (D : Nat) {n : Nat} (h : (Fin n → Fq) → R Fq) : Prop :=
  ∃ d : (Fin n → Fq) → Fq, (∀ x, h x = .ok (d x)) ∧
    ∀ (k : Nat) (p : Fin k → Fin n), 0 < k → Function.Injective p → ∀ (x : Fin n → Fq) (F : Polynomial (MvPolynomial (Fin k) Fq)) (dx : Nat),
      F ≠ 0 → (∀ j, (F.coeff j).totalDegree ≤ dx) → dx < D → ∀ S : Finset Fq,
        ((Fintype.piFinset fun _ : Fin k => S).filter fun u => (F.map (eval u)).eval (d (Function.extend p u x)) = 0).card * S.card ≤
          (dx + F.natDegree * D) * S.card ^ k

end Poseidon
