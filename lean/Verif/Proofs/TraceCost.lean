import Verif.Proofs.Trace

/-!
# The number of field operations of a run
-/

set_option linter.unusedSectionVars false

namespace Poseidon

namespace Traced

variable {F : Type} [Field F] [DecidableEq F] {k t nmds nhat rows cols nround npart : Nat} (a m s : Nat)

/-- If the run returns, it costs `c`. -/
def Costs {α : Type} (c : Nat) (x : Traced α) : Prop := (∃ v, x.result = .ok v) → x.price a m s = c

variable {a m s} {α β γ : Type} {c d : Nat}

theorem Costs.bind {x : Traced α} {f : α → Traced β} (hx : Costs a m s c x) (hf : ∀ v, x.result = .ok v → Costs a m s d (f v)) :
    Costs a m s (c + d) (x >>= f) := by
  rintro ⟨v, hv⟩
  cases h : x.result with
  | error e => rw [(bind_error h).1] at hv; cases hv
  | ok u =>
    obtain ⟨h1, h2⟩ := bind_ok (f := f) h
    have h3 := hx ⟨u, h⟩
    have h4 := hf u h ⟨v, h1.symm.trans hv⟩
    unfold price at h3 h4 ⊢
    rw [h2, List.map_append, List.sum_append, h3, h4]

theorem Costs.of_eq {x : Traced α} (hx : Costs a m s c x) (h : c = d) : Costs a m s d x := h ▸ hx

theorem Costs.pure (v : α) : Costs a m s 0 (Pure.pure v) := fun _ => rfl

theorem Costs.lift (x : R α) : Costs a m s 0 (lift x) := fun _ => rfl

theorem Costs.get {n : Nat} (l : Loc) (v : Vector α n) (i : Nat) : Costs a m s 0 (get l v i) := fun _ => rfl

theorem Costs.set {n : Nat} (l : Loc) (v : Vector α n) (i : Nat) (x : α) : Costs a m s 0 (set l v i x) := fun _ => rfl

theorem Costs.read (l : Loc) (i : Nat) : Costs a m s 0 (emit (.read l i)) := fun _ => rfl

theorem Costs.fadd (x y : F) : Costs a m s a (fadd x y) := fun _ => by simp [price, Traced.fadd, Event.price]

theorem Costs.fmul (x y : F) : Costs a m s m (fmul x y) := fun _ => by simp [price, Traced.fmul, Event.price]

theorem Costs.sbox (alpha : Alpha) (x : F) : Costs a m s s (sbox alpha x) := fun _ => by
  cases alpha <;> simp [price, Traced.sbox, Event.price]

theorem Costs.forRange {lo hi : Nat} {v : α} {f : Nat → α → Traced α} (hf : ∀ i v, Costs a m s c (f i v)) :
    Costs a m s ((hi - lo) * c) (forRange lo hi v f) := by
  unfold Traced.forRange
  generalize hi - lo = n
  induction n generalizing lo v with
  | zero => exact (Costs.pure v).of_eq (by ring)
  | succ n ih => exact ((hf lo v).bind fun v' _ => ih).of_eq (by ring)

theorem Costs.forList {l : List γ} {v : α} {f : γ → α → Traced α} (hf : ∀ x ∈ l, ∀ v, Costs a m s c (f x v)) :
    Costs a m s (l.length * c) (forList l v f) := by
  induction l generalizing v with
  | nil => exact (Costs.pure v).of_eq (by simp)
  | cons x l ih =>
    exact ((hf x (by simp) v).bind fun v' _ => ih fun y hy => hf y (by simp [hy])).of_eq (by rw [List.length_cons]; ring)

theorem costs_partialSubWords (alpha : Alpha) (v : Vector F t) : Costs a m s s (partialSubWords alpha v) :=
  ((Costs.get _ _ _).bind fun _ _ => (Costs.sbox _ _).bind fun _ _ => Costs.set _ _ _ _).of_eq (by ring)

theorem costs_fullSubWords (alpha : Alpha) (v : Vector F t) : Costs a m s (t * s) (fullSubWords alpha v) :=
  (Costs.forRange fun _ _ => (Costs.get _ _ _).bind fun _ _ => (Costs.sbox _ _).bind fun _ _ => Costs.set _ _ _ _).of_eq
    (by rw [Nat.sub_zero]; ring)

theorem costs_dot (l : Loc) (off off' : Nat) {xs ys : List F} {n : Nat} (h : (xs.zip ys).length = n) :
    Costs a m s (n * (m + a)) (dot l off off' xs ys) :=
  (Costs.forList (c := 0 + (0 + (m + a))) fun _ _ _ => (Costs.read _ _).bind fun _ _ => (Costs.read _ _).bind fun _ _ => (Costs.fmul _ _).bind fun _ _ =>
    Costs.fadd _ _).of_eq (by rw [List.length_zipIdx, h]; ring)

theorem costs_mixLayer (l : Loc) (M : Mat F t t nmds) (ht : 0 < t) (hm : nmds = t * t) (v : Vector F t) :
    Costs a m s (t * t * (m + a)) (mixLayer l M v) := by
  refine (Costs.bind (c := 0) (d := t * (t * (m + a))) (Costs.lift _) fun r hr => ?_).of_eq (by ring)
  rw [result_lift, iterRows_eq ht hm] at hr
  obtain rfl := Except.ok.inj hr
  refine (Costs.forList (c := t * (m + a)) ?_).of_eq (by simp)
  rintro ⟨row, i⟩ hmem w
  have hrow : row.length = t := by
    have := List.fst_mem_of_mem_zipIdx hmem
    simp only [List.mem_ofFn] at this
    obtain ⟨j, rfl⟩ := this
    simp
  exact ((costs_dot _ _ _ (n := t) (by simp [hrow])).bind fun _ _ => Costs.set _ _ _ _).of_eq (by ring)

theorem costs_addRow (arc : Mat F rows cols nround) (row : Nat) (v : Vector F t) : Costs a m s (t * a) (addRow arc row v) :=
  (Costs.forRange fun _ _ => (Costs.get _ _ _).bind fun _ _ => (Costs.get _ _ _).bind fun _ _ => (Costs.fadd _ _).bind fun _ _ =>
    Costs.set _ _ _ _).of_eq (by rw [Nat.sub_zero]; ring)

theorem costs_addLinear (arc : Mat F rows cols nround) (st : Vector F t × Nat) : Costs a m s (t * a) (addLinear arc st) :=
  (Costs.forRange (c := 0 + (0 + (a + (0 + 0)))) fun _ _ => (Costs.get _ _ _).bind fun _ _ => (Costs.get _ _ _).bind fun _ _ => (Costs.fadd _ _).bind fun _ _ =>
    (Costs.set _ _ _ _).bind fun _ _ => Costs.pure _).of_eq (by rw [Nat.sub_zero]; ring)

theorem costs_sparseMatMul (o : OptimizedMds F npart (k + 1) k nmds nhat) (round : Nat) (v : Vector F (k + 1)) :
    Costs a m s ((2 * k + 1) * (m + a)) (sparseMatMul o round v) := by
  unfold sparseMatMul
  have tail : ∀ (r : Vector F k) (s1 : Vector F (k + 1)), Costs a m s 0
      (Traced.lift (usub (k + 1) 1) >>= fun k' => if k' ≤ k then
        Traced.forList (r.toList.take k').zipIdx s1 fun (x, i) s => do
          emit (.read .addRow i)
          Traced.set .state s (i + 1) x
      else Traced.lift (.error .indexOOB)) := by
    intro r s1
    refine (Costs.bind (c := 0) (d := 0) (Costs.lift _) fun k' _ => ?_).of_eq (by ring)
    split
    · exact (Costs.forList (c := 0 + 0) fun _ _ _ => (Costs.read _ _).bind fun _ _ => Costs.set _ _ _ _).of_eq (by simp)
    · exact Costs.lift _
  refine (Costs.bind (c := 0) (d := k * (m + a) + ((m + a) + k * (m + a))) (Costs.lift _) fun w _ => ?_).of_eq (by ring)
  refine Costs.bind ?_ fun r _ => ?_
  · exact (Costs.forList (c := 0 + (0 + (m + (0 + (a + 0))))) fun _ _ _ => (Costs.read _ _).bind fun _ _ => (Costs.get _ _ _).bind fun _ _ =>
      (Costs.fmul _ _).bind fun _ _ => (Costs.get _ _ _).bind fun _ _ => (Costs.fadd _ _).bind fun _ _ => Costs.set _ _ _ _).of_eq
      (by rw [List.length_zipIdx, Vector.length_toList]; ring)
  · refine (Costs.bind (c := 0) (d := (m + a) + k * (m + a)) (Costs.read _ _) fun _ _ => ?_).of_eq (by ring)
    refine (Costs.bind (c := 0) (d := (m + a) + k * (m + a)) (Costs.get _ _ _) fun _ _ => ?_).of_eq (by ring)
    refine (Costs.bind (c := m) (d := a + k * (m + a)) (Costs.fmul _ _) fun _ _ => ?_).of_eq (by ring)
    refine (Costs.bind (c := 0) (d := a + k * (m + a)) (Costs.lift _) fun _ _ => ?_).of_eq (by ring)
    dsimp only
    rw [if_pos (by omega)]
    refine (Costs.bind (c := k * (m + a)) (d := a) (costs_dot _ _ _ (by simp)) fun _ _ => ?_).of_eq (by ring)
    exact ((Costs.fadd _ _).bind fun _ _ => (Costs.set _ _ _ _).bind fun _ _ => tail _ _).of_eq (by ring)

theorem ok_of_bind {x : R α} {f : α → R β} {y : β} (h : (x >>= f) = .ok y) : ∃ v, x = .ok v ∧ f v = .ok y := by
  cases x with
  | error e => cases h
  | ok v => exact ⟨v, rfl, h⟩

/-- Price of the optimized permutation. -/
theorem costs_permute (p : Params F (k + 1) k nmds nhat rows cols nround npart) (hm : nmds = (k + 1) * (k + 1)) (v : Vector F (k + 1)) :
    Costs a m s ((p.rounds.rF / 2 * 2 * (k + 1) + p.rounds.rP) * s +
      ((p.rounds.rF / 2 * 2 + 1) * (k + 1) ^ 2 + p.rounds.rP * (2 * k + 1)) * (m + a) +
      ((p.rounds.rF / 2 * 2 + 1) * (k + 1) + (p.rounds.rP - 1)) * a) (permute p v) := by
  unfold permute
  by_cases hP : 1 ≤ p.rounds.rP
  swap
  · -- without partial rounds the run panics
    rintro ⟨w, hw⟩
    exfalso
    rw [result_bind] at hw
    obtain ⟨_, -, hw⟩ := ok_of_bind hw
    rw [result_bind] at hw
    obtain ⟨_, -, hw⟩ := ok_of_bind hw
    rw [result_bind] at hw
    obtain ⟨_, -, hw⟩ := ok_of_bind hw
    rw [result_bind] at hw
    obtain ⟨l, hl, -⟩ := ok_of_bind hw
    have : p.rounds.partialRounds = p.rounds.rP := rfl
    rw [result_lift, this, usub, if_neg (by omega)] at hl
    cases hl
  obtain ⟨n, hn⟩ : ∃ n, p.rounds.rP = n + 1 := ⟨p.rounds.rP - 1, by omega⟩
  have hrp : p.rounds.partialRounds = n + 1 := hn
  have hrf : p.rounds.full = p.rounds.rF := rfl
  rw [hrp, hrf, hn, Nat.add_sub_cancel]
  generalize p.rounds.rF / 2 = rf
  have h1 : ∀ (v : Vector F (k + 1)), Costs a m s (rf * ((k + 1) * a + ((k + 1) * s + (k + 1) * (k + 1) * (m + a))))
      (Traced.forRange 0 rf v fun r v => do
        let v ← addRow p.optimizedArc r v
        let v ← fullSubWords p.alpha v
        mixLayer .mds p.mds v) := fun v =>
    (Costs.forRange fun _ _ => (costs_addRow _ _ _).bind fun _ _ => (costs_fullSubWords _ _).bind fun _ _ =>
      costs_mixLayer _ _ (by omega) hm _).of_eq (by rw [Nat.sub_zero])
  have h2 : ∀ x : Vector F (k + 1) × Nat, Costs a m s (rf * ((k + 1) * a + ((k + 1) * s + (k + 1) * (k + 1) * (m + a))))
      (Traced.forRange 0 rf x fun _ (v, c) => do
        let v ← addRow p.optimizedArc c v
        let v ← fullSubWords p.alpha v
        let v ← mixLayer .mds p.mds v
        return (v, c + 1)) := by
    intro x
    refine (Costs.forRange (c := (k + 1) * a + ((k + 1) * s + (k + 1) * (k + 1) * (m + a))) ?_).of_eq (by simp)
    rintro i ⟨v, c⟩
    exact ((costs_addRow _ _ _).bind fun _ _ => (costs_fullSubWords _ _).bind fun _ _ =>
      (costs_mixLayer _ _ (by omega) hm _).bind fun _ _ => Costs.pure _).of_eq (by ring)
  have h3 : ∀ x : Vector F (k + 1) × Nat, Costs a m s (n * (s + a + (2 * k + 1) * (m + a)))
      (Traced.forRange 0 n x fun r (v, c) => do
        let v ← partialSubWords p.alpha v
        let c := c + 1
        let x ← Traced.get .state v 0
        let y ← Traced.get .optimizedArc p.optimizedArc.elements (c * cols + 0)
        let y ← Traced.fadd x y
        let v ← Traced.set .state v 0 y
        let idx ← Traced.lift (usub (n + 1) r)
        let idx ← Traced.lift (usub idx 1)
        let v ← sparseMatMul p.optimizedMds idx v
        return (v, c)) := by
    intro x
    refine (Costs.forRange (c := s + a + (2 * k + 1) * (m + a)) ?_).of_eq (by simp)
    rintro i ⟨v, c⟩
    exact ((costs_partialSubWords _ _).bind fun _ _ => (Costs.get _ _ _).bind fun _ _ => (Costs.get _ _ _).bind fun _ _ =>
      (Costs.fadd _ _).bind fun _ _ => (Costs.set _ _ _ _).bind fun _ _ => (Costs.lift _).bind fun _ _ => (Costs.lift _).bind fun _ _ =>
      (costs_sparseMatMul _ _ _).bind fun _ _ => Costs.pure _).of_eq (by ring)
  refine Costs.of_eq (c := rf * ((k + 1) * a + ((k + 1) * s + (k + 1) * (k + 1) * (m + a))) + ((k + 1) * a + ((k + 1) * (k + 1) * (m + a) +
    (0 + (n * (s + a + (2 * k + 1) * (m + a)) + (s + ((2 * k + 1) * (m + a) +
      (rf * ((k + 1) * a + ((k + 1) * s + (k + 1) * (k + 1) * (m + a))) + 0)))))))) ?_ (by ring)
  refine (h1 v).bind fun v _ => (costs_addRow _ _ _).bind fun v _ => (costs_mixLayer _ _ (by omega) hm _).bind fun v _ =>
    (Costs.lift _).bind fun l hl => ?_
  rw [result_lift, usub, if_pos (by omega)] at hl
  obtain rfl := Except.ok.inj hl
  refine (h3 _).bind ?_
  rintro ⟨v, c⟩ -
  refine (costs_partialSubWords _ _).bind fun _ _ => (costs_sparseMatMul _ _ _).bind fun _ _ => (h2 _).bind ?_
  rintro ⟨v, c⟩ -
  exact Costs.pure _

/-- Price of the unoptimized permutation. -/
theorem costs_unoptimizedPermute (p : Params F t k nmds nhat rows cols nround npart) (ht : 0 < t) (hm : nmds = t * t) (v : Vector F t) :
    Costs a m s ((p.rounds.rF / 2 * 2 * t + p.rounds.rP) * s + (p.rounds.rF / 2 * 2 + p.rounds.rP) * t ^ 2 * (m + a) +
      (p.rounds.rF / 2 * 2 + p.rounds.rP) * t * a) (unoptimizedPermute p v) := by
  unfold unoptimizedPermute
  have hrp : p.rounds.partialRounds = p.rounds.rP := rfl
  have hrf : p.rounds.full = p.rounds.rF := rfl
  rw [hrp, hrf]
  generalize p.rounds.rF / 2 = rf
  generalize p.rounds.rP = rp
  have hfull : ∀ st : Vector F t × Nat, Costs a m s (rf * (t * a + (t * s + t * t * (m + a)))) (Traced.forRange 0 rf st fun _ st => do
      let (v, c) ← addLinear p.arc st
      let v ← fullSubWords p.alpha v
      let v ← mixLayer .mds p.mds v
      return (v, c)) := by
    intro st
    refine (Costs.forRange (c := t * a + (t * s + t * t * (m + a))) fun i st => ?_).of_eq (by simp)
    refine (costs_addLinear _ _).bind ?_
    rintro ⟨v, c⟩ -
    exact ((costs_fullSubWords _ _).bind fun _ _ => (costs_mixLayer _ _ ht hm _).bind fun _ _ => Costs.pure _).of_eq (by ring)
  have hpart : ∀ st : Vector F t × Nat, Costs a m s (rp * (t * a + (s + t * t * (m + a)))) (Traced.forRange 0 rp st fun _ st => do
      let (v, c) ← addLinear p.arc st
      let v ← partialSubWords p.alpha v
      let v ← mixLayer .mds p.mds v
      return (v, c)) := by
    intro st
    refine (Costs.forRange (c := t * a + (s + t * t * (m + a))) fun i st => ?_).of_eq (by simp)
    refine (costs_addLinear _ _).bind ?_
    rintro ⟨v, c⟩ -
    exact ((costs_partialSubWords _ _).bind fun _ _ => (costs_mixLayer _ _ ht hm _).bind fun _ _ => Costs.pure _).of_eq (by ring)
  exact ((hfull _).bind fun _ _ => (hpart _).bind fun _ _ => (hfull _).bind fun _ _ => Costs.pure _).of_eq (by ring)

theorem costs_setState (st x : Vector F t) : Costs a m s 0 (setState st x) :=
  (Costs.forList (c := 0 + 0) fun _ _ _ => (Costs.read _ _).bind fun _ _ => Costs.set _ _ _ _).of_eq (by simp)

end Traced

end Poseidon
