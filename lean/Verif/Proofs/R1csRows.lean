import Verif.Proofs.R1csCount

/-! # The rows of the circuit: five for each S-box, about its input and its own witnesses -/

set_option linter.unusedSectionVars false

namespace Poseidon.R1cs

variable {F : Type} [Field F] [DecidableEq F]
variable {t tm1 nmds nhat rows cols nround npart : Nat}

/-! ### Linear part: values with constants as multiples of the variable one -/

/-- Value of a circuit variable, linear in the assignment. -/
def FpVar.hev (σ : Variable → F) : FpVar F → F
  | .constant c => c * σ .one
  | .var v => LC.eval σ v.lc

theorem addConstant_hev (σ : Variable → F) (a : FpVar F) (c : F) : (a.addConstant c).hev σ = a.hev σ + c * σ .one := by
  cases a with
  | constant x => simp only [FpVar.addConstant, FpVar.hev]; ring
  | var v =>
    simp only [FpVar.addConstant, FpVar.hev, AllocatedFp.addConstant]
    split
    · next h => rw [h, zero_mul, add_zero]
    · rw [LC.eval_append, LC.eval_single]

theorem sum_hev (σ : Variable → F) (l : List (FpVar F)) :
    Ens (fun r => r.hev σ = (l.map (FpVar.hev σ)).sum) (FpVar.sum l) := by
  unfold FpVar.sum
  refine Ens.bind (Q := fun v => LC.eval σ v.lc = ((l.filterMap FpVar.var?).map
    fun v => LC.eval σ v.lc).sum) ?_ fun v hv => ?_
  · unfold AllocatedFp.addmany
    split
    · exact Ens.error
    · apply Ens.ok
      simp only
      generalize (l.filterMap FpVar.var?) = l'
      have : ∀ acc : LC F, LC.eval σ (l'.foldl (fun acc v => acc ++ v.lc) acc) =
          LC.eval σ acc + (l'.map fun v => LC.eval σ v.lc).sum := by
        induction l' with
        | nil => intro acc; simp
        | cons x xs ih => intro acc; rw [List.foldl_cons, ih, LC.eval_append, List.map_cons, List.sum_cons]; ring
      rw [this, LC.eval_nil, zero_add]
  · apply Ens.ok
    rw [addConstant_hev, FpVar.hev, hv, fsum_eq_sum]
    clear hv v
    induction l with
    | nil => simp
    | cons x xs ih =>
      cases x with
      | constant c =>
        simp only [List.filterMap_cons, FpVar.var?, FpVar.const?, List.map_cons, List.sum_cons, FpVar.hev]
        rw [← ih]; ring
      | var v =>
        simp only [List.filterMap_cons, FpVar.var?, FpVar.const?, List.map_cons, List.sum_cons, FpVar.hev]
        rw [← ih]; ring

theorem mixRow_hev (σ : Variable → F) (row : List F) (s : List (FpVar F)) (cs : CS F) :
    Ens (fun r => r.1.hev σ = (List.zipWith (· * ·) row (s.map (FpVar.hev σ))).sum) (mixRow row s cs) := by
  unfold mixRow
  refine Ens.bind (Q := fun r => r.1.map (FpVar.hev σ) = List.zipWith (· * ·) row (s.map (FpVar.hev σ))) ?_ fun r hr => ?_
  · refine (Ens.forList (Inv := fun j (r : List (FpVar F) × CS F) =>
      r.1.map (FpVar.hev σ) = ((row.zip s).take j).map fun p => p.1 * p.2.hev σ)
      (row.zip s) 0 ([], cs) (by simp) ?_).mono ?_
    · rintro j hj ⟨terms, cs'⟩ h2
      simp only [Nat.zero_add] at h2 ⊢
      have hm : ∀ (x : F) (y : FpVar F), Ens (fun r => r.1.hev σ = x * y.hev σ) ((FpVar.constant x).mul y cs') := by
        intro x y
        cases y with
        | constant c => exact Ens.ok (by simp only [FpVar.hev]; ring)
        | var v => exact Ens.ok (by simp only [FpVar.hev]; rw [mulConstant_eval, mul_comm])
      refine Ens.bind (hm _ _) fun r hr => ?_
      refine Ens.ok ?_
      rw [List.take_add_one, List.map_append, List.map_append, h2, List.getElem?_eq_getElem hj]
      simp [hr]
    · rintro r h2
      refine h2.trans ?_
      rw [Nat.zero_add, List.take_length, List.zip, List.map_zipWith]
      clear h2
      induction row generalizing s with
      | nil => rfl
      | cons x xs ih =>
        cases s with
        | nil => rfl
        | cons y ys => simp [ih ys]
  · exact Ens.bind (sum_hev σ r.1) fun x hx => Ens.ok (hx.trans (by rw [hr]))

theorem isVar_of_numVar {s : List (FpVar F)} (h : numVar s = s.length) : ∀ i (hi : i < s.length), s[i].isVar = true :=
  fun _ hi => (List.countP_eq_length.1 h) _ (List.getElem_mem hi)

theorem mixLayer_hev (ht : 0 < t) (hm : nmds = t * t) (m : Mat F t t nmds)
    {s : List (FpVar F)} (hs : s.length = t) (cs : CS F) :
    Ens (fun r => r.2 = cs ∧ r.1.length = t ∧ (∀ i (hi : i < r.1.length), r.1[i].isVar = true) ∧
      ∀ σ i (hi : i < r.1.length) (hi' : i < t), r.1[i].hev σ =
        ∑ j : Fin t, m.toM hm ⟨i, hi'⟩ j * (s[j.val]'(by omega)).hev σ) (mixLayer m s cs) := by
  intro a ha
  obtain ⟨k1, k2, k3⟩ := mixLayer_count ht hm m s cs a ha
  refine ⟨k3, k1, isVar_of_numVar (k2.trans k1.symm), fun σ i hi hi' => ?_⟩
  unfold mixLayer at ha
  rw [iterRows_eq ht hm, ok_bind] at ha
  have := Ens.forList (Inv := fun j (r : List (FpVar F) × CS F) =>
      r.1.length = j ∧ (∀ i (hi : i < r.1.length) (hi' : i < t), r.1[i].hev σ =
        (List.zipWith (· * ·) (List.ofFn fun l : Fin t => m.toM hm ⟨i, hi'⟩ l) (s.map (FpVar.hev σ))).sum))
      (f := fun row (new, cs) => do
        let (x, cs) ← mixRow row s cs
        return (new ++ [x], cs))
      (List.ofFn fun i : Fin t => List.ofFn fun j : Fin t => m.toM hm i j) 0 ([], cs)
      ⟨rfl, fun i hi => absurd hi (by simp)⟩ (by
        rintro j hj ⟨new, cs'⟩ ⟨h2, h3⟩
        simp only [Nat.zero_add] at h2 h3 ⊢
        refine Ens.bind (mixRow_hev σ _ s cs') fun r hr => Ens.ok ⟨by simp [h2], ?_⟩
        intro i hi hi'
        rw [List.getElem_append]
        split
        · next h5 => exact h3 i h5 hi'
        · next h5 =>
          have : i = j := by simp at hi; omega
          subst this
          simp only [List.getElem_singleton]
          rw [hr]
          simp) a ha
  rw [this.2 i hi hi']
  have hx : s.map (FpVar.hev σ) = List.ofFn fun i : Fin t => (s[i.val]'(by omega)).hev σ := by
    apply List.ext_getElem
    · simp [hs]
    · intro j hj hj'
      simp only [List.getElem_map, List.getElem_ofFn]
  rw [hx]
  have hd := dotProduct_ofFn (fun l => m.toM hm ⟨i, hi'⟩ l) fun j : Fin t => (s[j.val]'(by omega)).hev σ
  rw [dotProduct, if_neg (by simp), fsum_eq_sum] at hd
  exact Except.ok.inj hd

/-! ### S-boxes -/

/-- A witness as a linear combination. -/
def wit (i : Nat) : LC F := [(1, .witness i)]

/-- The rows of the S-box `x ^ 17` on the combination `a`, whose first witness has number `n`. -/
def sboxRows (a : LC F) (n : Nat) : List (LC F × LC F × LC F) :=
  [(a, a, wit n), (wit n, wit n, wit (n + 1)), (wit (n + 1), wit (n + 1), wit (n + 2)),
    (wit (n + 2), wit (n + 2), wit (n + 3)), (wit (n + 3), a, wit (n + 4))]

/-- The rows of S-boxes on the given combinations. -/
def rowsOf : Nat → List (LC F) → List (LC F × LC F × LC F)
  | _, [] => []
  | n, a :: as => sboxRows a n ++ rowsOf (n + 5) as

theorem rowsOf_append (as bs : List (LC F)) : ∀ n, rowsOf n (as ++ bs) = rowsOf n as ++ rowsOf (n + 5 * as.length) bs := by
  induction as with
  | nil => intro n; rfl
  | cons a as ih =>
    intro n
    rw [List.cons_append, rowsOf, rowsOf, ih, List.append_assoc, List.length_cons]
    congr 3
    ring

/-- The S-boxes on `as`, in this order, are what has been added. -/
def Boxes (as : List (LC F)) (cs cs' : CS F) : Prop :=
  cs'.constraints = cs.constraints ++ rowsOf cs.numWitness as ∧ cs'.numWitness = cs.numWitness + 5 * as.length

theorem Boxes.refl (cs : CS F) : Boxes [] cs cs := ⟨by simp [rowsOf], rfl⟩

theorem Boxes.trans {as bs : List (LC F)} {a b c : CS F} (h : Boxes as a b) (h' : Boxes bs b c) : Boxes (as ++ bs) a c := by
  refine ⟨?_, ?_⟩
  · rw [h'.1, h.1, h.2, rowsOf_append, List.append_assoc]
  · rw [h'.2, h.2, List.length_append]; ring

theorem amul_rows (a b : AllocatedFp F) (cs : CS F) :
    Ens (fun r => r.1.lc = wit cs.numWitness ∧ r.2.constraints = cs.constraints ++ [(a.lc, b.lc, wit cs.numWitness)] ∧
      r.2.numWitness = cs.numWitness + 1) (a.mul b cs) := by
  unfold AllocatedFp.mul
  refine Ens.bind (Q := fun r => r.1.lc = wit cs.numWitness ∧ r.2.constraints = cs.constraints ∧
    r.2.numWitness = cs.numWitness + 1) ?_ fun r hr => ?_
  · unfold newWitness
    dsimp only
    split
    · exact Ens.ok ⟨rfl, rfl, rfl⟩
    · split
      · exact Ens.error
      · exact Ens.ok ⟨rfl, rfl, rfl⟩
  · exact Ens.ok ⟨hr.1, by simp only [enforce]; rw [hr.2.1, hr.1], hr.2.2⟩

/-- The combination of a variable. -/
def FpVar.lc? : FpVar F → Option (LC F)
  | .constant _ => none
  | .var v => some v.lc

theorem FpVar.isVar_lc? (x : FpVar F) : x.isVar = true ↔ ∃ l, x.lc? = some l := by
  cases x <;> simp [FpVar.isVar, FpVar.lc?]

theorem bits17 : bitsBE 17 = [true, false, false, false, true] := by decide

theorem mul_rows (v w : AllocatedFp F) (cs : CS F) :
    Ens (fun r => ∃ x, r.1 = .var x ∧ x.lc = wit cs.numWitness ∧
      r.2.constraints = cs.constraints ++ [(v.lc, w.lc, wit cs.numWitness)] ∧
      r.2.numWitness = cs.numWitness + 1) ((FpVar.var v).mul (.var w) cs) := by
  unfold FpVar.mul
  exact Ens.bind (amul_rows v w cs) fun r hr => Ens.ok ⟨r.1, rfl, hr⟩

theorem square_rows (v : AllocatedFp F) (cs : CS F) :
    Ens (fun r => ∃ x, r.1 = .var x ∧ x.lc = wit cs.numWitness ∧
      r.2.constraints = cs.constraints ++ [(v.lc, v.lc, wit cs.numWitness)] ∧
      r.2.numWitness = cs.numWitness + 1) ((FpVar.var v).square cs) := by
  unfold FpVar.square
  exact Ens.bind (amul_rows v v cs) fun r hr => Ens.ok ⟨r.1, rfl, hr⟩

theorem pow17_var (v : AllocatedFp F) (cs : CS F) :
    Ens (fun r => r.1.lc? = some (wit (cs.numWitness + 4)) ∧ Boxes [v.lc] cs r.2) ((FpVar.var v).powByConstant 17 cs) := by
  have h1 : v.mulConstant (1 * 1) = v := by simp [AllocatedFp.mulConstant]
  have e : (FpVar.var v).powByConstant 17 cs = (do
      let (x, cs) ← (FpVar.var v).square cs
      let (x, cs) ← x.square cs
      let (x, cs) ← x.square cs
      let (x, cs) ← x.square cs
      x.mul (.var v) cs) := by
    unfold FpVar.powByConstant
    rw [bits17]
    simp only [forList, FpVar.square, FpVar.mul, ok_bind, h1, if_true, if_false, Bool.false_eq_true, bind_assoc, pure_bind]
    rfl
  rw [e]
  refine Ens.bind (square_rows v cs) ?_
  rintro ⟨_, cs1⟩ ⟨x1, rfl, a1, b1, c1⟩
  refine Ens.bind (square_rows x1 cs1) ?_
  rintro ⟨_, cs2⟩ ⟨x2, rfl, a2, b2, c2⟩
  refine Ens.bind (square_rows x2 cs2) ?_
  rintro ⟨_, cs3⟩ ⟨x3, rfl, a3, b3, c3⟩
  refine Ens.bind (square_rows x3 cs3) ?_
  rintro ⟨_, cs4⟩ ⟨x4, rfl, a4, b4, c4⟩
  refine (mul_rows x4 v cs4).mono ?_
  rintro ⟨_, cs5⟩ ⟨x5, rfl, a5, b5, c5⟩
  dsimp only at b1 b2 b3 b4 b5 c1 c2 c3 c4 c5 ⊢
  rw [c1] at a2 b2 c2
  rw [c2] at a3 b3 c3
  rw [c3] at a4 b4 c4
  rw [c4] at a5 b5 c5
  refine ⟨?_, ?_, c5⟩
  · simp only [FpVar.lc?]
    rw [a5]
  · simp only [rowsOf, sboxRows, List.append_nil]
    rw [b5, b4, b3, b2, b1, a4, a3, a2, a1]
    simp [List.append_assoc]

theorem pow17_const (c : F) (cs : CS F) :
    Ens (fun r => r.1.isVar = false ∧ r.2 = cs) ((FpVar.constant c).powByConstant 17 cs) := by
  unfold FpVar.powByConstant
  rw [bits17]
  exact Ens.ok ⟨rfl, rfl⟩

/-! ### Layers -/

/-- The combination of a variable (nothing for a constant). -/
def FpVar.lcD : FpVar F → LC F
  | .constant _ => []
  | .var v => v.lc

theorem FpVar.hev_lcD {x : FpVar F} (h : x.isVar = true) (σ : Variable → F) : x.hev σ = LC.eval σ x.lcD := by
  cases x with
  | constant c => cases h
  | var v => rfl

theorem FpVar.hev_const {x : FpVar F} (h : x.isVar = false) {σ : Variable → F} (h1 : σ .one = 0) : x.hev σ = 0 := by
  cases x with
  | constant c => simp [FpVar.hev, h1]
  | var v => cases h

theorem wit_eval (σ : Variable → F) (i : Nat) : LC.eval σ (wit i) = σ (.witness i) := by simp [wit, LC.eval]

theorem pow17_rows (a : FpVar F) (cs : CS F) :
    Ens (fun r => r.1.isVar = a.isVar ∧ (a.isVar = false → r.2 = cs) ∧
      (a.isVar = true → r.1.lcD = wit (cs.numWitness + 4) ∧ Boxes [a.lcD] cs r.2)) (a.powByConstant 17 cs) := by
  cases a with
  | constant c => exact (pow17_const c cs).mono fun r h => ⟨h.1, fun _ => h.2, fun h => by cases h⟩
  | var v =>
    refine (pow17_var v cs).mono ?_
    rintro ⟨x, cs'⟩ ⟨h1, h2⟩
    cases x with
    | constant c => cases h1
    | var w => exact ⟨rfl, (fun h => by cases h), fun _ => ⟨Option.some.inj h1, h2⟩⟩

theorem addRoundConstants_hev (arc : Mat F rows cols nround) (s : List (FpVar F)) (counter : Nat) :
    Ens (fun r => r.1.length = s.length ∧ ∀ i (h : i < s.length) (h' : i < r.1.length), r.1[i].isVar = s[i].isVar ∧
      ∀ σ : Variable → F, σ .one = 0 → r.1[i].hev σ = s[i].hev σ) (addRoundConstants t arc s counter) := by
  unfold addRoundConstants
  refine Ens.forRange (Inv := fun _ (r : List (FpVar F) × Nat) => r.1.length = s.length ∧
    ∀ i (h : i < s.length) (h' : i < r.1.length), r.1[i].isVar = s[i].isVar ∧
      ∀ σ : Variable → F, σ .one = 0 → r.1[i].hev σ = s[i].hev σ) (Nat.zero_le _) ⟨rfl, fun i _ _ => ⟨rfl, fun _ _ => rfl⟩⟩ ?_
  rintro i ⟨s', c⟩ _ hi ⟨h1, h2⟩
  dsimp only at h1 h2 ⊢
  by_cases hi' : i < s'.length
  · rw [lget_lt _ hi', ok_bind]
    refine Ens.bind (Q := fun _ => True) (fun _ _ => trivial) fun k _ => ?_
    rw [lset_lt _ hi', ok_bind]
    refine Ens.ok ⟨by simp [h1], fun j hj hj' => ?_⟩
    dsimp only
    rw [List.getElem_set]
    split
    · next e =>
      subst e
      obtain ⟨h3, h4⟩ := h2 i hj hi'
      refine ⟨by rw [addConstant_isVar, h3], fun σ hσ => ?_⟩
      rw [addConstant_hev, hσ, mul_zero, add_zero, h4 σ hσ]
    · exact h2 j hj _
  · rw [lget_ge _ (by omega)]
    exact Ens.error

theorem subWord_rows (s : List (FpVar F)) (cs : CS F) (i : Nat) :
    Ens (fun r => ∃ (h : i < s.length) (y : FpVar F), r.1 = s.set i y ∧ y.isVar = s[i].isVar ∧ (s[i].isVar = false → r.2 = cs) ∧
      (s[i].isVar = true → y.lcD = wit (cs.numWitness + 4) ∧ Boxes [s[i].lcD] cs r.2)) (do
      let x ← lget s i
      let (y, cs) ← x.powByConstant 17 cs
      let s ← lset s i y
      return (s, cs)) := by
  by_cases hi : i < s.length
  · rw [lget_lt _ hi, ok_bind]
    refine Ens.bind (pow17_rows s[i] cs) ?_
    rintro ⟨y, cs'⟩ h
    dsimp only at h ⊢
    rw [lset_lt _ hi, ok_bind]
    exact Ens.ok ⟨hi, y, rfl, h⟩
  · rw [lget_ge _ (by omega)]
    exact Ens.error

theorem fullSubWords_rows (s : List (FpVar F)) (hs : s.length = t) (cs : CS F) {c : Nat}
    (hv : ∀ i (hi : i < s.length), s[i].isVar = decide (c ≤ i)) :
    Ens (fun r => Boxes ((s.drop c).map FpVar.lcD) cs r.2 ∧ r.1.length = t ∧
      ∀ i (hi : i < r.1.length), r.1[i].isVar = decide (c ≤ i) ∧
        (c ≤ i → r.1[i].lcD = wit (cs.numWitness + 5 * (i - c) + 4))) (fullSubWords t (.exponent 17) s cs) := by
  unfold fullSubWords
  refine (Ens.forRange (Inv := fun j (r : List (FpVar F) × CS F) => Boxes (((s.take j).drop c).map FpVar.lcD) cs r.2 ∧
    r.1.length = t ∧ ∀ i (hi : i < r.1.length), r.1[i].isVar = decide (c ≤ i) ∧
        (i < j → c ≤ i → r.1[i].lcD = wit (cs.numWitness + 5 * (i - c) + 4)) ∧ (j ≤ i → ∀ h : i < s.length, r.1[i] = s[i]))
      (Nat.zero_le _) ⟨by simpa using Boxes.refl cs, hs, fun i hi => ⟨hv i hi, fun h => absurd h (by omega), fun _ _ => rfl⟩⟩ ?_).mono ?_
  · rintro j ⟨s', cs'⟩ _ hj ⟨h1, h2, h3⟩
    dsimp only at h1 h2 h3 ⊢
    refine (subWord_rows s' cs' j).mono ?_
    rintro ⟨_, cs''⟩ ⟨hjl, y, rfl, k1, k2, k3⟩
    dsimp only at k1 k2 k3 ⊢
    obtain ⟨m1, -, m2⟩ := h3 j hjl
    have hjs : j < s.length := by omega
    have m2 := m2 le_rfl hjs
    refine ⟨?_, by simp [h2], fun i hi => ?_⟩
    · rw [List.take_add_one, List.getElem?_eq_getElem hjs, Option.toList_some]
      by_cases hcj : c ≤ j
      · obtain ⟨-, k5⟩ := k3 (by rw [m1, decide_eq_true hcj])
        have := h1.trans k5
        rw [List.drop_append_of_le_length (by rw [List.length_take]; omega), List.map_append]
        rw [m2] at this
        exact this
      · rw [k2 (by rw [m1, decide_eq_false hcj])]
        have e1 : (List.take j s ++ [s[j]]).drop c = [] := List.drop_eq_nil_of_le (by simp; omega)
        have e2 : (List.take j s).drop c = [] := List.drop_eq_nil_of_le (by simp; omega)
        rw [e2] at h1
        rw [e1]
        exact h1
    · rw [List.getElem_set]
      split
      · next e =>
        subst e
        refine ⟨k1.trans m1, fun _ hcj => ?_, fun h => absurd h (by omega)⟩
        obtain ⟨k4, -⟩ := k3 (by rw [m1, decide_eq_true hcj])
        rw [k4, h1.2]
        congr 2
        simp only [List.length_map, List.length_drop, List.length_take]
        omega
      · next e =>
        obtain ⟨q1, q2, q3⟩ := h3 i (by simpa using hi)
        exact ⟨q1, fun h => q2 (by omega), fun h => q3 (by omega)⟩
  · rintro ⟨s', cs'⟩ ⟨h1, h2, h3⟩
    rw [List.take_of_length_le (by omega)] at h1
    dsimp only at h1 h2 h3 ⊢
    exact ⟨h1, h2, fun i hi => ⟨(h3 i hi).1, (h3 i hi).2.1 (by omega)⟩⟩

/-- A round: the S-boxes are on the words of the state (up to constants); the new words are combinations of what the S-boxes
return and of the other words. -/
theorem round_rows (p : Params F t tm1 nmds nhat rows cols nround npart) (ha : p.alpha = .exponent 17) (ht : 0 < t)
    (hm : nmds = t * t) (full : Bool) (s : List (FpVar F)) (counter : Nat) (cs : CS F) (hs : s.length = t) {c : Nat}
    (hv : ∀ i (hi : i < s.length), s[i].isVar = decide (c ≤ i)) (hf : full = false → c = 0) :
    Ens (fun r => ∃ as, Boxes as cs r.2.2 ∧ r.1.length = t ∧ (∀ i (hi : i < r.1.length), r.1[i].isVar = true) ∧
      ∀ σ : Variable → F, σ .one = 0 →
        as.map (LC.eval σ) = (if full then s.drop c else s.take 1).map (FpVar.hev σ) ∧
        ∀ i (hi : i < r.1.length) (hi' : i < t), r.1[i].hev σ = ∑ j : Fin t, p.mds.toM hm ⟨i, hi'⟩ j *
          (if full then (if c ≤ j.val then σ (.witness (cs.numWitness + 5 * (j.val - c) + 4)) else 0)
            else if j.val = 0 then σ (.witness (cs.numWitness + 4)) else (s[j.val]'(by omega)).hev σ))
      (round p full (s, counter, cs)) := by
  unfold round
  dsimp only
  refine Ens.bind (addRoundConstants_hev p.arc s counter) ?_
  rintro ⟨s1, counter'⟩ ⟨h1, h2⟩
  dsimp only at h1 h2 ⊢
  have hv1 : ∀ i (hi : i < s1.length), s1[i].isVar = decide (c ≤ i) := fun i hi => by
    rw [(h2 i (by omega) hi).1, hv]
  cases full with
  | true =>
    simp only [if_true]
    rw [ha]
    refine Ens.bind (fullSubWords_rows s1 (h1.trans hs) cs hv1) ?_
    rintro ⟨s2, cs2⟩ ⟨k1, k2, k3⟩
    dsimp only at k1 k2 k3 ⊢
    refine Ens.bind (mixLayer_hev ht hm p.mds k2 cs2) ?_
    rintro ⟨s3, cs3⟩ ⟨rfl, m1, m2, m3⟩
    refine Ens.ok ⟨_, k1, m1, m2, fun σ hσ => ⟨?_, fun i hi hi' => ?_⟩⟩
    · apply List.ext_getElem
      · simp [h1]
      · intro j hj hj'
        simp only [List.getElem_map, List.getElem_drop]
        have hjl : c + j < s1.length := by simp at hj; omega
        rw [← FpVar.hev_lcD (by rw [hv1 _ hjl]; simp), (h2 _ _ hjl).2 σ hσ]
    · dsimp only
      rw [m3 σ i hi hi']
      refine Finset.sum_congr rfl fun j _ => ?_
      obtain ⟨q1, q2⟩ := k3 j.val (by omega)
      congr 1
      by_cases hcj : c ≤ j.val
      · rw [if_pos hcj, FpVar.hev_lcD (by rw [q1, decide_eq_true hcj]), q2 hcj, wit_eval]
      · rw [if_neg hcj, FpVar.hev_const (by rw [q1, decide_eq_false hcj]) hσ]
  | false =>
    obtain rfl := hf rfl
    simp only [Bool.false_eq_true, if_false]
    rw [ha]
    refine Ens.bind (Q := _) (subWord_rows s1 cs 0) ?_
    rintro ⟨_, cs2⟩ ⟨k0, y, rfl, k1, -, k3⟩
    dsimp only at k1 k3 ⊢
    have hv0 : s1[0].isVar = true := by rw [hv1 0 k0]; rfl
    obtain ⟨k4, k5⟩ := k3 hv0
    refine Ens.bind (mixLayer_hev ht hm p.mds (s := s1.set 0 y) (by simp [h1, hs]) cs2) ?_
    rintro ⟨s3, cs3⟩ ⟨rfl, m1, m2, m3⟩
    refine Ens.ok ⟨_, k5, m1, m2, fun σ hσ => ⟨?_, fun i hi hi' => ?_⟩⟩
    · apply List.ext_getElem
      · simp; omega
      · intro j hj hj'
        simp only [List.map_cons, List.map_nil, List.length_singleton] at hj
        obtain rfl : j = 0 := by omega
        simp only [List.map_cons, List.getElem_cons_zero, List.getElem_map, List.getElem_take]
        rw [← FpVar.hev_lcD hv0, (h2 0 (by omega) k0).2 σ hσ]
    · dsimp only
      rw [m3 σ i hi hi']
      refine Finset.sum_congr rfl fun j _ => ?_
      congr 1
      simp only [List.getElem_set]
      by_cases hj : j.val = 0
      · simp only [hj, if_true]
        rw [FpVar.hev_lcD (k1.trans hv0), k4, wit_eval]
      · rw [if_neg (Ne.symm hj), if_neg hj, (h2 j.val (by omega) (by omega)).2 σ hσ]

end Poseidon.R1cs
