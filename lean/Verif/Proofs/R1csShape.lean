import Verif.Proofs.R1csComplete

/-! # The constraints do not depend on the values; setup mode generates the same ones -/

set_option linter.unusedSectionVars false

namespace Poseidon.R1cs

variable {F : Type} [Field F] [DecidableEq F]
variable {t tm1 nmds nhat rows cols nround npart : Nat}

/-- The same allocated variable without its value. -/
def AllocatedFp.shape (a : AllocatedFp F) : AllocatedFp F := ⟨none, a.lc⟩

theorem amul_shape (a b : AllocatedFp F) (cs : CS F) :
    Sim (fun r r' => r' = (r.1.shape, r.2.shape)) (a.mul b cs) (a.shape.mul b.shape cs.shape) := by
  unfold AllocatedFp.mul newWitness
  cases hs : cs.setup with
  | true => exact Sim.ok rfl
  | false =>
    simp only [CS.shape, if_true]
    cases (do let x ← a.value; let y ← b.value; return x * y : Option F) with
    | none => exact Sim.error
    | some v => exact Sim.ok rfl

theorem mulConstant_shape (a : AllocatedFp F) (c : F) : (a.shape).mulConstant c = (a.mulConstant c).shape := by
  unfold AllocatedFp.mulConstant
  split <;> rfl

theorem addConstant_shape (a : FpVar F) (c : F) : a.shape.addConstant c = (a.addConstant c).shape := by
  cases a with
  | constant x => rfl
  | var v =>
    simp only [FpVar.shape, FpVar.addConstant, AllocatedFp.addConstant]
    split <;> rfl

theorem mul_shape (a b : FpVar F) (cs : CS F) :
    Sim (fun r r' => r' = (r.1.shape, r.2.shape)) (a.mul b cs) (a.shape.mul b.shape cs.shape) := by
  cases a with
  | constant c =>
    cases b with
    | constant d => exact Sim.ok rfl
    | var w => exact Sim.ok (by rw [show (⟨none, w.lc⟩ : AllocatedFp F) = w.shape from rfl, mulConstant_shape]; rfl)
  | var v =>
    cases b with
    | constant d => exact Sim.ok (by rw [show (⟨none, v.lc⟩ : AllocatedFp F) = v.shape from rfl, mulConstant_shape]; rfl)
    | var w =>
      refine Sim.bind (amul_shape v w cs) ?_
      rintro ⟨r, cs'⟩ _ rfl
      exact Sim.ok rfl

theorem square_shape (a : FpVar F) (cs : CS F) :
    Sim (fun r r' => r' = (r.1.shape, r.2.shape)) (a.square cs) (a.shape.square cs.shape) := by
  cases a with
  | constant c => exact Sim.ok rfl
  | var v =>
    refine Sim.bind (amul_shape v v cs) ?_
    rintro ⟨r, cs'⟩ _ rfl
    exact Sim.ok rfl

theorem pow_shape (a : FpVar F) (e : Nat) (cs : CS F) :
    Sim (fun r r' => r' = (r.1.shape, r.2.shape)) (a.powByConstant e cs) (a.shape.powByConstant e cs.shape) := by
  unfold FpVar.powByConstant
  refine Sim.forList (Rel := fun _ (r : FpVar F × CS F) (r' : FpVar F × CS F) => r' = (r.1.shape, r.2.shape))
    (bitsBE e) (bitsBE e) 0 _ _ rfl rfl ?_
  rintro j hj _ ⟨r, cs⟩ _ rfl
  refine Sim.bind (square_shape r cs) ?_
  rintro ⟨r, cs⟩ _ rfl
  dsimp only
  cases (bitsBE e)[j] with
  | true => exact mul_shape r a cs
  | false => exact Sim.ok rfl

theorem sum_shape (l : List (FpVar F)) :
    Sim (fun r r' => r' = r.shape) (FpVar.sum l) (FpVar.sum (l.map FpVar.shape)) := by
  have hc : (l.map FpVar.shape).filterMap FpVar.const? = l.filterMap FpVar.const? := by
    rw [List.filterMap_map]
    congr 1
    funext x
    cases x <;> rfl
  have hv : (l.map FpVar.shape).filterMap FpVar.var? = (l.filterMap FpVar.var?).map AllocatedFp.shape := by
    rw [List.filterMap_map, List.map_filterMap]
    congr 1
    funext x
    cases x <;> rfl
  unfold FpVar.sum
  rw [hc, hv]
  refine Sim.bind (Q := fun r r' => r' = AllocatedFp.shape r) ?_ ?_
  · unfold AllocatedFp.addmany
    generalize l.filterMap FpVar.var? = vs
    cases vs with
    | nil => exact Sim.error
    | cons v vs =>
      refine Sim.ok ?_
      have h1 : ∀ (vs : List (AllocatedFp F)) (acc : LC F), (vs.map AllocatedFp.shape).foldl (fun acc v => acc ++ v.lc) acc =
          vs.foldl (fun acc v => acc ++ v.lc) acc := by
        intro vs
        induction vs with
        | nil => intro acc; rfl
        | cons v vs ih => intro acc; exact ih _
      have h2 : ∀ (vs : List (AllocatedFp F)), (vs.map AllocatedFp.shape).foldl
          (fun acc v => do let x ← acc; let y ← v.value; return x + y) (none : Option F) = none := by
        intro vs
        induction vs with
        | nil => rfl
        | cons v vs ih => exact ih
      simp only [AllocatedFp.shape, AllocatedFp.mk.injEq]
      exact ⟨h2 vs, h1 (v :: vs) []⟩
  · rintro r _ rfl
    exact Sim.ok (addConstant_shape (.var r) _)

theorem lget_map {α β : Type} (f : α → β) (l : List α) (i : Nat) :
    Sim (fun x y => y = f x) (lget l i) (lget (l.map f) i) := by
  by_cases h : i < l.length
  · rw [lget_lt l h, lget_lt _ (by simpa using h)]
    exact Sim.ok (by simp)
  · intro a ha
    rw [lget_ge _ (by omega)] at ha
    cases ha

theorem lset_map {α β : Type} (f : α → β) (l : List α) (i : Nat) (x : α) :
    Sim (fun a b => b = a.map f) (lset l i x) (lset (l.map f) i (f x)) := by
  by_cases h : i < l.length
  · rw [lset_lt _ h, lset_lt _ (by simpa using h)]
    exact Sim.ok (by simp)
  · intro a ha
    rw [lset, if_neg h] at ha
    cases ha

/-- The pair of a list of circuit words and a constraint system, without values. -/
def shape2 (r : List (FpVar F) × CS F) : List (FpVar F) × CS F := (r.1.map FpVar.shape, r.2.shape)

theorem addRoundConstants_shape (t : Nat) (arc : Mat F rows cols nround) (s : List (FpVar F)) (counter : Nat) :
    Sim (fun a b => b = (a.1.map FpVar.shape, a.2)) (addRoundConstants t arc s counter)
      (addRoundConstants t arc (s.map FpVar.shape) counter) := by
  unfold addRoundConstants
  refine Sim.forRange (Rel := fun _ (a : List (FpVar F) × Nat) (b : List (FpVar F) × Nat) =>
    b = (a.1.map FpVar.shape, a.2)) (Nat.zero_le _) rfl ?_
  rintro i ⟨s, c⟩ _ _ _ rfl
  refine Sim.bind (lget_map _ s i) ?_
  rintro x _ rfl
  refine Sim.bind (Q := fun x y => y = x) (fun a ha => ⟨a, ha, rfl⟩) ?_
  rintro k _ rfl
  rw [addConstant_shape]
  refine Sim.bind (lset_map _ s i _) ?_
  rintro s _ rfl
  exact Sim.ok rfl

theorem subWord_shape (e : Nat) (s : List (FpVar F)) (cs : CS F) (i : Nat) :
    Sim (fun a b => b = shape2 a) (do
      let x ← lget s i
      let (y, cs) ← x.powByConstant e cs
      let s ← lset s i y
      return (s, cs)) (do
      let x ← lget (s.map FpVar.shape) i
      let (y, cs) ← x.powByConstant e cs.shape
      let s ← lset (s.map FpVar.shape) i y
      return (s, cs)) := by
  refine Sim.bind (lget_map _ s i) ?_
  rintro x _ rfl
  refine Sim.bind (pow_shape x e cs) ?_
  rintro ⟨y, cs⟩ _ rfl
  refine Sim.bind (lset_map _ s i _) ?_
  rintro s _ rfl
  exact Sim.ok rfl

theorem partialSubWords_shape (alpha : Alpha) (s : List (FpVar F)) (cs : CS F) :
    Sim (fun a b => b = shape2 a) (partialSubWords alpha s cs)
      (partialSubWords alpha (s.map FpVar.shape) cs.shape) := by
  cases alpha with
  | exponent e => exact subWord_shape e s cs 0
  | inverse => exact Sim.error

theorem fullSubWords_shape (t : Nat) (alpha : Alpha) (s : List (FpVar F)) (cs : CS F) :
    Sim (fun a b => b = shape2 a) (fullSubWords t alpha s cs)
      (fullSubWords t alpha (s.map FpVar.shape) cs.shape) := by
  cases alpha with
  | exponent e =>
    unfold fullSubWords
    refine Sim.forRange (Rel := fun _ (a : List (FpVar F) × CS F) (b : List (FpVar F) × CS F) => b = shape2 a)
      (Nat.zero_le _) rfl ?_
    rintro i ⟨s, cs⟩ _ _ _ rfl
    exact subWord_shape e s cs i
  | inverse => exact Sim.error

theorem mixRow_shape (row : List F) (s : List (FpVar F)) (cs : CS F) :
    Sim (fun r r' => r' = (r.1.shape, r.2.shape)) (mixRow row s cs) (mixRow row (s.map FpVar.shape) cs.shape) := by
  unfold mixRow
  refine Sim.bind (Q := fun (a : List (FpVar F) × CS F) (b : List (FpVar F) × CS F) => b = shape2 a) ?_ ?_
  · refine Sim.forList (Rel := fun _ (a : List (FpVar F) × CS F) (b : List (FpVar F) × CS F) => b = shape2 a)
      _ _ 0 _ _ (by simp) rfl ?_
    rintro j hj hj' ⟨s', cs'⟩ _ rfl
    simp only [List.getElem_zip, List.getElem_map]
    refine Sim.bind (mul_shape _ _ cs') ?_
    rintro ⟨p, cs⟩ _ rfl
    exact Sim.ok (by simp [shape2])
  · rintro ⟨terms, cs⟩ _ rfl
    refine Sim.bind (sum_shape terms) ?_
    rintro r _ rfl
    exact Sim.ok rfl

theorem mixLayer_shape (m : Mat F t t nmds) (s : List (FpVar F)) (cs : CS F) :
    Sim (fun a b => b = shape2 a) (mixLayer m s cs) (mixLayer m (s.map FpVar.shape) cs.shape) := by
  unfold mixLayer
  refine Sim.bind (Q := fun x y => y = x) (fun a ha => ⟨a, ha, rfl⟩) ?_
  rintro rws _ rfl
  refine Sim.forList (Rel := fun _ (a : List (FpVar F) × CS F) (b : List (FpVar F) × CS F) => b = shape2 a)
    _ _ 0 _ _ rfl rfl ?_
  rintro j hj hj' ⟨new, cs⟩ _ rfl
  refine Sim.bind (mixRow_shape _ s cs) ?_
  rintro ⟨x, cs⟩ _ rfl
  exact Sim.ok (by simp [shape2])

theorem round_shape (p : Params F t tm1 nmds nhat rows cols nround npart) (full : Bool)
    (a : List (FpVar F) × Nat × CS F) :
    Sim (fun a b => b = (a.1.map FpVar.shape, a.2.1, a.2.2.shape)) (round p full a)
      (round p full (a.1.map FpVar.shape, a.2.1, a.2.2.shape)) := by
  obtain ⟨s, c, cs⟩ := a
  unfold round
  refine Sim.bind (addRoundConstants_shape t p.arc s c) ?_
  rintro ⟨s, c⟩ _ rfl
  dsimp only
  have tail : ∀ (a b : List (FpVar F) × CS F), b = shape2 a →
      Sim (fun (a b : List (FpVar F) × Nat × CS F) => b = (a.1.map FpVar.shape, a.2.1, a.2.2.shape))
        (do let r ← mixLayer p.mds a.1 a.2; return (r.1, c, r.2))
        (do let r ← mixLayer p.mds b.1 b.2; return (r.1, c, r.2)) := by
    rintro a _ rfl
    refine Sim.bind (mixLayer_shape p.mds a.1 a.2) ?_
    rintro ⟨s, cs⟩ _ rfl
    exact Sim.ok rfl
  cases full with
  | true => exact Sim.bind (fullSubWords_shape t p.alpha s cs) tail
  | false => exact Sim.bind (partialSubWords_shape p.alpha s cs) tail

theorem permute_shape (p : Params F t tm1 nmds nhat rows cols nround npart) (s : List (FpVar F)) (cs : CS F) :
    Sim (fun a b => b = shape2 a) (permute p s cs) (permute p (s.map FpVar.shape) cs.shape) := by
  have L : ∀ (full : Bool) (n : Nat) (a b : List (FpVar F) × Nat × CS F),
      b = (a.1.map FpVar.shape, a.2.1, a.2.2.shape) →
      Sim (fun (a b : List (FpVar F) × Nat × CS F) => b = (a.1.map FpVar.shape, a.2.1, a.2.2.shape))
      (forRange 0 n a fun _ st => round p full st) (forRange 0 n b fun _ st => round p full st) := by
    intro full n a b hab
    refine Sim.forRange (Rel := fun _ (a b : List (FpVar F) × Nat × CS F) =>
      b = (a.1.map FpVar.shape, a.2.1, a.2.2.shape)) (Nat.zero_le _) hab ?_
    rintro k a _ _ _ rfl
    exact round_shape p full a
  unfold permute
  refine Sim.bind (L true _ _ _ rfl) fun a b hab => ?_
  refine Sim.bind (L false _ _ _ hab) fun a b hab => ?_
  refine Sim.bind (L true _ _ _ hab) ?_
  rintro a _ rfl
  exact Sim.ok rfl

theorem nTo1FixedHash_shape (p : Params F t tm1 nmds nhat rows cols nround npart) (v : Vector (FpVar F) t)
    (cs : CS F) :
    Sim (fun r r' => r' = (r.1.shape, r.2.shape)) (nTo1FixedHash p v cs)
      (nTo1FixedHash p (v.map FpVar.shape) cs.shape) := by
  unfold nTo1FixedHash
  rw [Vector.toList_map]
  refine Sim.bind (permute_shape p v.toList cs) ?_
  rintro ⟨s, cs⟩ _ rfl
  refine Sim.bind (lget_map FpVar.shape s 1) ?_
  rintro x _ rfl
  exact Sim.ok rfl

end Poseidon.R1cs
