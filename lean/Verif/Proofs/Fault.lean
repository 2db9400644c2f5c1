import Verif.Spec.Fault
import Verif.Proofs.CircuitRun
import Verif.Proofs.Degree
import Mathlib.Algebra.Polynomial.Roots

/-! # A missing row lets the digest vary -/

set_option linter.unusedSectionVars false

namespace Poseidon

open Matrix Polynomial

/-! ### Checks on the matrix -/

/-- After the S-boxes of each round, every active word reaches word 1 of the result with its full degree. -/
def checkSuffix (t : Nat) (m : List Nat) : List Bool → Bool
  | [] => true
  | full :: l => (allN t fun j => !(full || Nat.beq j 0) ||
      forceL (l.foldl (fun L full => leadN t m full L) (tabN t fun a => ent t m a j)) fun L => !Nat.beq (nth L 1 % q) 0) &&
    checkSuffix t m l

theorem natV_ne_zero {t : Nat} {L : List Nat} {a : Fin t} (h : (!Nat.beq (nth L a % q) 0) = true) : natV t L a ≠ 0 := by
  rw [natV]
  intro h3
  rw [← cast_mod] at h3
  have h4 := (ZMod.natCast_eq_zero_iff _ q).1 h3
  rw [Nat.dvd_iff_mod_eq_zero, Nat.mod_mod] at h4
  rw [h4] at h
  exact absurd h (by decide)

theorem checkSuffix_spec {t : Nat} (ht : 1 < t) {m : List Nat} {fulls : List Bool} (h : checkSuffix t m fulls = true) :
    ∀ (n : Nat) (hn : n < fulls.length) (j : Fin t), Active fulls[n] j →
      leadRounds 17 (natM t t m) (fulls.drop (n + 1)) (fun a => natM t t m a j) ⟨1, ht⟩ ≠ 0 := by
  induction fulls with
  | nil => intro n hn; exact absurd hn (by simp)
  | cons full l ih =>
    rw [checkSuffix, Bool.and_eq_true] at h
    intro n hn j hj
    cases n with
    | succ n => exact ih h.2 n (by simpa using hn) j hj
    | zero =>
      have h1 := allN_iff.1 h.1 j j.isLt
      rw [Bool.or_eq_true] at h1
      rcases h1 with h1 | h1
      · have hj' : Active full j := hj
        rw [active_iff, decide_eq_true hj'] at h1
        exact absurd h1 (by decide)
      · rw [forceL_eq] at h1
        have hD : (fun a => natM t t m a j) = natV t (tabN t fun a => ent t m a j) := by
          funext a
          rw [natV, nth_tabN _ a.isLt]; rfl
        rw [List.drop_one, List.tail_cons, hD, leadRounds_cast]
        exact natV_ne_zero h1

/-- After each round, no leading coefficient vanishes. -/
def checkPrefix (t : Nat) (m : List Nat) : List Bool → List Nat → Bool
  | [], _ => true
  | full :: l, L => forceL (leadN t m full L) fun L' => (allN t fun a => !Nat.beq (nth L' a % q) 0) && checkPrefix t m l L'

theorem checkPrefix_spec {t : Nat} {m : List Nat} {fulls : List Bool} {L : List Nat} (h : checkPrefix t m fulls L = true) :
    ∀ (n : Nat), 1 ≤ n → n ≤ fulls.length → ∀ a, leadRounds 17 (natM t t m) (fulls.take n) (natV t L) a ≠ 0 := by
  induction fulls generalizing L with
  | nil => intro n h1 hn; simp at hn; omega
  | cons full l ih =>
    rw [checkPrefix, forceL_eq, Bool.and_eq_true] at h
    intro n h1 hn a
    obtain ⟨n, rfl⟩ : ∃ n', n = n' + 1 := ⟨n - 1, by omega⟩
    have e : leadRounds 17 (natM t t m) ((full :: l).take (n + 1)) (natV t L) =
        leadRounds 17 (natM t t m) (l.take n) (natV t (leadN t m full L)) := by
      rw [List.take_succ_cons, leadN_cast]; rfl
    rw [e]
    cases n with
    | zero => exact natV_ne_zero (allN_iff.1 h.1 a a.isLt)
    | succ n => exact ih h.2 (n + 1) (by omega) (by simpa using hn) a

/-! ### The result as a polynomial in what one S-box returns -/

section
variable {F : Type} [Field F] [DecidableEq F] {t : Nat}

/-- One word of the layer of S-boxes variable. -/
noncomputable def layerPoly (M : Matrix (Fin t) (Fin t) F) (g : Fin t → F) (j : Fin t) : Fin t → F[X] :=
  fun i => C (M i j) * X + C (M.mulVec (Function.update g j 0) i)

theorem layerPoly_eval (M : Matrix (Fin t) (Fin t) F) (g : Fin t → F) (j : Fin t) (y : F) :
    (fun i => (layerPoly M g j i).eval y) = M.mulVec (Function.update g j y) := by
  funext i
  have e : Function.update g j y = Function.update g j 0 + Pi.single j y := by
    funext a
    rw [Pi.add_apply, Function.update_apply, Function.update_apply, Pi.single_apply]
    split_ifs <;> simp
  rw [e, Matrix.mulVec_add, Pi.add_apply, layerPoly, eval_add, eval_mul, eval_C, eval_C, eval_X, Matrix.mulVec_single]
  simp only [MulOpposite.smul_eq_mul_unop, MulOpposite.unop_op, Pi.smul_apply, Matrix.col_apply]
  ring

theorem layerPoly_top (M : Matrix (Fin t) (Fin t) F) (g : Fin t → F) (j : Fin t) : Top 1 (layerPoly M g j) fun a => M a j := by
  intro i
  refine ⟨natDegree_linear_le, ?_⟩
  rw [layerPoly, coeff_add, coeff_C_mul, coeff_X_one, mul_one, coeff_C, if_neg (by decide), add_zero]

end

theorem exists_eval_ne {g : Fq[X]} (h0 : g.natDegree ≠ 0) (h : g.natDegree < q) (d : Fq) : ∃ u, g.eval u ≠ d := by
  by_contra hn
  push Not at hn
  have h1 : g - C d ≠ 0 := by
    intro h2
    rw [sub_eq_zero] at h2
    rw [h2, natDegree_C] at h0
    exact h0 rfl
  have h2 : (Finset.univ : Finset Fq) ⊆ (g - C d).roots.toFinset := by
    intro u _
    rw [Multiset.mem_toFinset, mem_roots h1, IsRoot.def, eval_sub, eval_C, hn u, sub_self]
  have h3 := (Finset.card_le_card h2).trans ((Multiset.toFinset_card_le _).trans (card_roots' _))
  rw [Finset.card_univ, card_Fq, natDegree_sub_C] at h3
  omega

namespace R1cs

/-- Rounds after an S-box with a missing row: for a suitable witness of that row, word 1 is not `d`. -/
theorem fault_differs {t : Nat} {M : Matrix (Fin t) (Fin t) Fq} (C' : Nat → Fin t → Fq) (r : Nat) (l : List Bool) (hl : l.length ≤ 38)
    (full : Bool) (c z : Fin t → Fq) (j a : Fin t) (hlead : leadRounds 17 M l (fun a => M a j) a ≠ 0) {b : Nat} (hb : b < 5)
    (hx : z j + c j ≠ 0 ∨ b = 4) (d : Fq) :
    ∃ u, foldRounds M C' r l (M.mulVec (layerWith full c z j (boxMap b (z j + c j) u))) a ≠ d := by
  obtain ⟨Q, h1, h2⟩ := rounds_poly (e := 17) M (fun p : Bool × Nat => p.1) (fun p => C' p.2) (by norm_num) (l.zipIdx r) (le_refl 1)
    (layerPoly_top M (fun i => if Active full i then (z i + c i) ^ 17 else z i + c i) j)
  have hfst : (l.zipIdx r).map (fun p : Bool × Nat => p.1) = l := List.zipIdx_map_fst r l
  rw [List.length_zipIdx, one_mul, hfst] at h1
  have hQ : (Q a).natDegree = 17 ^ l.length := by
    apply le_antisymm (h1 a).1
    apply le_natDegree_of_ne_zero
    rw [(h1 a).2]
    exact hlead
  have hev : ∀ y, foldRounds M C' r l (M.mulVec (layerWith full c z j y)) a = (Q a).eval y := by
    intro y
    have := congrFun (h2 y) a
    rw [this, layerPoly_eval]
    rfl
  obtain ⟨Y, hY, hY0, hY8⟩ : ∃ Y : Fq[X], (∀ u, Y.eval u = boxMap b (z j + c j) u) ∧ Y.natDegree ≠ 0 ∧ Y.natDegree ≤ 8 := by
    by_cases hb4 : b = 4
    · exact ⟨X, fun u => by rw [eval_X, boxMap, if_pos hb4], by rw [natDegree_X]; decide, by rw [natDegree_X]; decide⟩
    · have hx := hx.resolve_right hb4
      have hD : (X ^ (2 ^ (3 - b)) * C (z j + c j) : Fq[X]).natDegree = 2 ^ (3 - b) := natDegree_mul_C hx |>.trans (natDegree_X_pow _)
      refine ⟨X ^ (2 ^ (3 - b)) * C (z j + c j), fun u => by rw [boxMap, if_neg hb4]; simp, ?_, ?_⟩
      · rw [hD]; positivity
      · rw [hD]
        calc 2 ^ (3 - b) ≤ 2 ^ 3 := Nat.pow_le_pow_right (by decide) (by omega)
          _ = 8 := rfl
  have hcomp : ((Q a).comp Y).natDegree = 17 ^ l.length * Y.natDegree := by rw [natDegree_comp, hQ]
  obtain ⟨u, hu⟩ := exists_eval_ne (g := (Q a).comp Y) (by
      rw [hcomp]
      exact Nat.mul_ne_zero (by positivity) hY0) (by
      rw [hcomp]
      calc 17 ^ l.length * Y.natDegree ≤ 17 ^ 38 * 8 := Nat.mul_le_mul (Nat.pow_le_pow_right (by decide) hl) hY8
        _ < q := by decide +kernel) d
  refine ⟨u, ?_⟩
  rw [hev, ← hY, ← eval_comp]
  exact hu

/-! ### Assignments with one witness at will -/

section
variable {F : Type} [Field F] [DecidableEq F] {t tm1 nmds nhat rows cols nround npart : Nat}

theorem Grows.length {a b : CS F} (h : Grows a b) :
    b.constraints.length + a.numWitness = b.numWitness + a.constraints.length := by
  induction h with
  | refl => omega
  | step _ _ _ _ _ _ _ _ hw _ hc ih => rw [hc, List.length_append, hw, List.length_singleton]; omega

theorem Grows.row {a b : CS F} (h : Grows a b) {k : Nat} (hk : a.constraints.length ≤ k) {con : LC F × LC F × LC F}
    (hcon : b.constraints[k]? = some con) : con.2.2 = [(1, .witness (a.numWitness + (k - a.constraints.length)))] := by
  induction h with
  | refl => rw [List.getElem?_eq_none hk] at hcon; cases hcon
  | @step cs1 cs2 h x y ha hb hs hi hia hnw hwa hc ih =>
    by_cases hlt : k < cs1.constraints.length
    · rw [hc, List.getElem?_append_left hlt] at hcon
      exact ih hcon
    · rw [hc, List.getElem?_append_right (by omega)] at hcon
      have hk0 : k - cs1.constraints.length = 0 := by
        by_contra h0
        rw [List.getElem?_eq_none (by simp; omega)] at hcon
        cases hcon
      rw [hk0, List.getElem?_cons_zero] at hcon
      cases hcon
      have := h.length
      have e : cs1.numWitness = a.numWitness + (k - a.constraints.length) := by
        have := h.numWitness
        omega
      rw [← e]

theorem Satisfies.but {cs : CS F} {σ : Variable → F} (h : Satisfies σ cs) (k : Nat) : SatisfiesBut k σ cs :=
  ⟨h.1, fun _ con _ hcon => h.2 con (List.mem_of_getElem? hcon)⟩

theorem Grows.fault {a b : CS F} (h : Grows a b) (hw : WellFormed a) {σ : Variable → F} {k : Nat}
    (hσ : SatisfiesBut k σ a) (u : F) :
    ∃ τ, SatisfiesBut k τ b ∧ AgreeOn a σ τ ∧ (a.constraints.length ≤ k → k < b.constraints.length → τ (.witness (a.numWitness + (k - a.constraints.length))) = u) := by
  induction h with
  | refl =>
    exact ⟨σ, hσ, fun _ _ => rfl, fun h h' => absurd h (by omega)⟩
  | @step cs1 cs2 h x y ha hb hs hi hia hnw hwa hc ih =>
    obtain ⟨τ, h1, h2, h3⟩ := ih
    have hlen := h.length
    have hnwa := h.numWitness
    let v : F := if cs1.constraints.length = k then u else LC.eval τ x * LC.eval τ y
    let τ' : Variable → F := fun w => if w = .witness cs1.numWitness then v else τ w
    have hag : AgreeOn cs1 τ τ' := by
      intro w hwk
      have : w ≠ .witness cs1.numWitness := by
        rintro rfl; exact Nat.lt_irrefl _ hwk
      simp only [τ', if_neg this]
    have hwf := h.wellFormed hw
    refine ⟨τ', ⟨by rw [← hag .one trivial]; exact h1.1, fun i con hik hcon => ?_⟩, fun w hwk => ?_, fun hk hlt => ?_⟩
    · by_cases hlt : i < cs1.constraints.length
      · rw [hc, List.getElem?_append_left hlt] at hcon
        obtain ⟨w1, w2, w3⟩ := hwf con (List.mem_of_getElem? hcon)
        rw [← LC.eval_agree hag w1, ← LC.eval_agree hag w2, ← LC.eval_agree hag w3]
        exact h1.2 i con hik hcon
      · rw [hc, List.getElem?_append_right (by omega)] at hcon
        have hk0 : i - cs1.constraints.length = 0 := by
          by_contra h0
          rw [List.getElem?_eq_none (by simp; omega)] at hcon
          cases hcon
        rw [hk0, List.getElem?_cons_zero] at hcon
        cases hcon
        dsimp only
        rw [← LC.eval_agree hag ha, ← LC.eval_agree hag hb]
        have hne : ¬ cs1.constraints.length = k := by omega
        simp [LC.eval, τ', v, hne]
    · rw [h2 w hwk]; exact hag w (hwk.mono h)
    · rw [hc, List.length_append, List.length_singleton] at hlt
      by_cases hkk : k < cs1.constraints.length
      · rw [← h3 hk hkk]
        refine (hag _ ?_).symm
        show a.numWitness + (k - a.constraints.length) < cs1.numWitness
        omega
      · have e : a.numWitness + (k - a.constraints.length) = cs1.numWitness := by omega
        have e2 : cs1.constraints.length = k := by omega
        simp only [τ', v, e, e2, if_true]

theorem FpVar.eval_agreeOn {cs : CS F} {σ τ : Variable → F} (h : AgreeOn cs σ τ) {x : FpVar F} (hx : x.Known cs) : x.eval σ = x.eval τ := by
  cases x with
  | constant c => rfl
  | var v => exact LC.eval_agree h hx

/-! ### The whole permutation -/

theorem forList_append {α β : Type} (f : α → β → R β) : ∀ (l l' : List α) (a : β),
    forList (l ++ l') a f = forList l a f >>= fun a => forList l' a f := by
  intro l
  induction l with
  | nil => intro l' a; rfl
  | cons x l ih =>
    intro l' a
    rw [List.cons_append, forList, forList, bind_assoc]
    congr 1
    funext b
    exact ih l' b

theorem forList_replicate {α β : Type} (f : α → β → R β) (b : α) : ∀ (n : Nat) (a : β),
    forList (List.replicate n b) a f = forRange 0 n a fun _ st => f b st := by
  have key : ∀ (n i : Nat) (a : β), forList (List.replicate n b) a f = loopN (fun _ st => f b st) n i a := by
    intro n
    induction n with
    | zero => intro i a; rfl
    | succ n ih =>
      intro i a
      rw [List.replicate_succ, forList, loopN]
      congr 1
      funext a'
      exact ih (i + 1) a'
  intro n a
  exact key n 0 a

theorem permute_flags (p : Params F t tm1 nmds nhat rows cols nround npart) (s : List (FpVar F)) (cs : CS F) :
    permute p s cs = (forList (List.replicate (p.rounds.full / 2) true ++ List.replicate p.rounds.partialRounds false ++
      List.replicate (p.rounds.full / 2) true) (s, 0, cs) fun full st => round p full st) >>= fun st => .ok (st.1, st.2.2) := by
  rw [forList_append, forList_append, forList_replicate, bind_assoc, bind_assoc]
  simp only [forList_replicate]
  rfl

end

end R1cs

end Poseidon
