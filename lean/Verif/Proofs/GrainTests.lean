import Verif.Proofs.MdsTestsCert

/-!
# Certificates for the three matrix tests

For a matrix of which the entries are given as numbers: the vectors `e0, M e0, M^2 e0, …` are computed modulo `p`, their independence is
checked with an inverse matrix, and the relations for the powers of `M` are checked in the coordinates with respect to these vectors.  A
vector of coordinates is a list with the highest one first.
-/

namespace Poseidon

open Matrix

/-! ## Computations on lists, in a form that is fast in the kernel -/

/-- `∑ l_i m_i` -/
def dotN (l m : List Nat) : Nat :=
  List.rec (motive := fun _ => List Nat → Nat) (fun _ => 0)
    (fun x _ ih m => List.rec (motive := fun _ => Nat) 0 (fun y ys _ => x * y + ih ys) m) l m

/-- `M w` modulo `p` -/
def mulN (p : Nat) (rows : List (List Nat)) (w : List Nat) : List Nat := rows.map fun r => dotN r w % p

/-- The vectors `w`, `A w`, …, `A^n w` for a step `A`, evaluated one after the other -/
def iterN {α : Type} (A : List Nat → List Nat) : Nat → List Nat → (List (List Nat) → α) → α
  | 0, w, f => f [w]
  | n + 1, w, f => forceL (A w) fun w' => iterN A n w' fun ws => f (w :: ws)

/-- `c a + (xs, 0)` modulo `p` -/
def stepN (p c : Nat) (a xs : List Nat) : List Nat :=
  List.rec (motive := fun _ => List Nat → List Nat) (fun _ => [])
    (fun y _ ih xs => List.rec (motive := fun _ => List Nat) ((c * y % p) :: ih []) (fun x xs _ => ((c * y + x) % p) :: ih xs) xs) a xs

/-- The coordinates of `M v` from those of `v`; `a` are the coordinates of `M^(k+1) e0`. -/
def shiftN (p : Nat) (a w : List Nat) : List Nat :=
  List.rec (motive := fun _ => List Nat) [] (fun c xs _ => stepN p c a xs) w

/-- `c v + acc` -/
def axpyN (c : Nat) (v acc : List Nat) : List Nat :=
  List.rec (motive := fun _ => List Nat → List Nat) (fun _ => [])
    (fun x _ ih acc => List.rec (motive := fun _ => List Nat) [] (fun y ys _ => (c * x + y) :: ih ys) acc) v acc

/-- `f (l.drop r)` -/
def dropN {α : Type} (r : Nat) (l : List (List Nat)) (f : List (List Nat) → α) : α :=
  Nat.rec (motive := fun _ => List (List Nat) → α) (fun l => f l)
    (fun _ ih l => List.rec (motive := fun _ => α) (f []) (fun _ ws _ => ih ws) l) r l

/-- `acc + ∑ c_j w_(r j)` -/
def comboN (r : Nat) (cs : List Nat) (ws : List (List Nat)) (acc : List Nat) : List Nat :=
  List.rec (motive := fun _ => List (List Nat) → List Nat → List Nat) (fun _ acc => acc)
    (fun c _ ih ws acc => List.rec (motive := fun _ => List Nat) acc
      (fun w ws' _ => forceL (axpyN c w acc) fun acc' => dropN r (w :: ws') fun ws'' => ih ws'' acc') ws) cs ws acc

/-- Equality modulo `p` -/
def eqN (p : Nat) (l m : List Nat) : Bool :=
  List.rec (motive := fun _ => List Nat → Bool) (fun m => List.rec (motive := fun _ => Bool) true (fun _ _ _ => false) m)
    (fun x _ ih m => List.rec (motive := fun _ => Bool) false (fun y ys _ => Nat.beq (x % p) (y % p) && ih ys) m) l m

theorem iterN_eq {α : Type} (A : List Nat → List Nat) (n : Nat) (w : List Nat) (f : List (List Nat) → α) :
    iterN A n w f = f ((List.range (n + 1)).map fun j => A^[j] w) := by
  induction n generalizing w f with
  | zero => rfl
  | succ n ih =>
    rw [iterN, forceL_eq, ih, List.range_succ_eq_map (n := n + 1), List.map_cons, List.map_map]
    rfl

theorem dropN_eq {α : Type} (r : Nat) (l : List (List Nat)) (f : List (List Nat) → α) : dropN r l f = f (l.drop r) := by
  induction r generalizing l with
  | zero => rfl
  | succ r ih =>
    cases l with
    | nil => rfl
    | cons w ws => exact ih ws

theorem comboN_cons (r c : Nat) (cs w : List Nat) (ws : List (List Nat)) (acc : List Nat) :
    comboN r (c :: cs) (w :: ws) acc = comboN r cs ((w :: ws).drop r) (axpyN c w acc) := by
  show (forceL (axpyN c w acc) fun acc' => dropN r (w :: ws) fun ws'' => comboN r cs ws'' acc') = _
  rw [forceL_eq, dropN_eq]

/-! ## Their meaning -/

section
variable {F : Type} [Field F] {k p : Nat} (M : Matrix (Fin (k + 1)) (Fin (k + 1)) F)

/-- The vector with the coordinates `l` -/
def evN : List Nat → (Fin (k + 1) → F)
  | [] => 0
  | x :: xs => (x : F) • orbit M xs.length + evN xs

variable {M}

theorem stepN_length (p c : Nat) (a xs : List Nat) : (stepN p c a xs).length = a.length := by
  induction a generalizing xs with
  | nil => rfl
  | cons y ys ih =>
    cases xs with
    | nil => show (stepN p c ys []).length + 1 = _; rw [ih]; rfl
    | cons x xs => show (stepN p c ys xs).length + 1 = _; rw [ih]; rfl

theorem stepN_ev (hp : (p : F) = 0) (c : Nat) (a xs : List Nat) (h : a.length = xs.length + 1) :
    evN M (stepN p c a xs) = (c : F) • evN M a + M.mulVec (evN M xs) := by
  induction xs generalizing a with
  | nil =>
    obtain ⟨y, rfl⟩ := List.length_eq_one_iff.1 h
    show ((c * y % p : Nat) : F) • orbit M 0 + evN M (stepN p c [] []) = (c : F) • ((y : F) • orbit M 0 + 0) + M.mulVec 0
    rw [natMod_cast hp, Matrix.mulVec_zero, Nat.cast_mul, mul_smul]
    show _ + (0 : Fin (k + 1) → F) = _
    simp
  | cons x xs ih =>
    obtain ⟨y, ys, rfl⟩ := List.exists_cons_of_length_eq_add_one h
    have hl : ys.length = xs.length + 1 := by simpa using h
    show (((c * y + x) % p : Nat) : F) • orbit M (stepN p c ys xs).length + evN M (stepN p c ys xs) =
      (c : F) • ((y : F) • orbit M ys.length + evN M ys) + M.mulVec ((x : F) • orbit M xs.length + evN M xs)
    rw [natMod_cast hp, stepN_length, ih ys hl, Matrix.mulVec_add, Matrix.mulVec_smul, orbit_succ, hl]
    push_cast
    module

theorem shiftN_ev (hp : (p : F) = 0) {a w : List Nat} (ha : a.length = k + 1) (hw : w.length = k + 1) (hev : evN M a = orbit M (k + 1)) :
    (shiftN p a w).length = k + 1 ∧ evN M (shiftN p a w) = M.mulVec (evN M w) := by
  obtain ⟨c, xs, rfl⟩ := List.exists_cons_of_length_eq_add_one hw
  have hl : xs.length = k := by simpa using hw
  refine ⟨by rw [← ha]; exact stepN_length p c a xs, ?_⟩
  show evN M (stepN p c a xs) = M.mulVec ((c : F) • orbit M xs.length + evN M xs)
  rw [stepN_ev hp c a xs (by omega), hev, Matrix.mulVec_add, Matrix.mulVec_smul, orbit_succ, hl]

theorem shiftN_iterate (hp : (p : F) = 0) {a w : List Nat} (ha : a.length = k + 1) (hw : w.length = k + 1) (hev : evN M a = orbit M (k + 1))
    (h0 : evN M w = orbit M 0) (n : Nat) :
    ((shiftN p a)^[n] w).length = k + 1 ∧ evN M ((shiftN p a)^[n] w) = orbit M n := by
  induction n with
  | zero => exact ⟨hw, h0⟩
  | succ n ih =>
    rw [Function.iterate_succ_apply']
    have := shiftN_ev (M := M) hp ha ih.1 hev
    exact ⟨this.1, by rw [this.2, ih.2, orbit_succ]⟩

theorem axpyN_ev (c : Nat) (v acc : List Nat) (h : v.length = acc.length) :
    (axpyN c v acc).length = acc.length ∧ evN M (axpyN c v acc) = (c : F) • evN M v + evN M acc := by
  induction v generalizing acc with
  | nil =>
    obtain rfl := List.length_eq_zero_iff.1 h.symm
    exact ⟨rfl, by show (0 : Fin (k + 1) → F) = (c : F) • (0 : Fin (k + 1) → F) + 0; simp⟩
  | cons x xs ih =>
    cases acc with
    | nil => cases h
    | cons y ys =>
      have hl : xs.length = ys.length := by simpa using h
      obtain ⟨h1, h2⟩ := ih ys hl
      refine ⟨by show (axpyN c xs ys).length + 1 = _; rw [h1]; rfl, ?_⟩
      show ((c * x + y : Nat) : F) • orbit M (axpyN c xs ys).length + evN M (axpyN c xs ys) =
        (c : F) • ((x : F) • orbit M xs.length + evN M xs) + ((y : F) • orbit M ys.length + evN M ys)
      rw [h1, h2, hl]
      push_cast
      module

theorem eqN_ev (hp : (p : F) = 0) (l m : List Nat) (h : eqN p l m = true) : l.length = m.length ∧ evN M l = evN M m := by
  induction l generalizing m with
  | nil =>
    cases m with
    | nil => exact ⟨rfl, rfl⟩
    | cons y ys => cases h
  | cons x xs ih =>
    cases m with
    | nil => cases h
    | cons y ys =>
      have h' : (Nat.beq (x % p) (y % p) && eqN p xs ys) = true := h
      rw [Bool.and_eq_true] at h'
      obtain ⟨h1, h2⟩ := ih ys h'.2
      refine ⟨by rw [List.length_cons, List.length_cons, h1], ?_⟩
      show (x : F) • orbit M xs.length + evN M xs = (y : F) • orbit M ys.length + evN M ys
      rw [h1, h2, ← natMod_cast hp x, beqN h'.1, natMod_cast hp]

theorem comboN_ev {r t : Nat} (cs : List Nat) (ws : List (List Nat)) (acc : List Nat) (m : Nat) (hacc : acc.length = t)
    (hws : ∀ i (h : i < ws.length), ws[i].length = t ∧ evN M ws[i] = orbit M (r * m + i))
    (hmem : evN M acc ∈ Submodule.span F (Set.range (orbit (M ^ r)))) :
    evN M (comboN r cs ws acc) ∈ Submodule.span F (Set.range (orbit (M ^ r))) := by
  induction cs generalizing ws acc m with
  | nil => exact hmem
  | cons c cs ih =>
    cases ws with
    | nil => exact hmem
    | cons w ws =>
      rw [comboN_cons]
      obtain ⟨h1, h2⟩ := hws 0 (by simp)
      rw [List.getElem_cons_zero] at h1 h2
      obtain ⟨h3, h4⟩ := axpyN_ev (M := M) c w acc (by omega)
      refine ih _ _ (m + 1) (by omega) (fun i h => ?_) ?_
      · rw [List.getElem_drop]
        have := hws (r + i) (by rw [List.length_drop] at h; omega)
        rw [show r * (m + 1) + i = r * m + (r + i) by ring]
        exact this
      · rw [show r * m + 0 = r * m from rfl, ← orbit_pow] at h2
        rw [h4, h2]
        exact Submodule.add_mem _ (Submodule.smul_mem _ _ (Submodule.subset_span ⟨m, rfl⟩)) hmem

/-! ## The tests -/

/-- The multiples of `e0` span everything if the matrix of the first ones has an inverse. -/
theorem inverse_cyclic {N : Matrix (Fin (k + 1)) (Fin (k + 1)) F} (h : N * (Matrix.of fun i j : Fin (k + 1) => orbit M j i) = 1) :
    Cyclic M := by
  rw [Cyclic, eq_top_iff]
  rintro v -
  have h1 := mul_eq_one_comm.1 h
  have h2 : v = (Matrix.of fun i j : Fin (k + 1) => orbit M j i).mulVec (N.mulVec v) := by rw [Matrix.mulVec_mulVec, h1, Matrix.one_mulVec]
  have h3 : (Matrix.of fun i j : Fin (k + 1) => orbit M j i).mulVec (N.mulVec v) = ∑ j : Fin (k + 1), N.mulVec v j • orbit M j := by
    ext i
    rw [Matrix.mulVec, _root_.dotProduct, Finset.sum_apply]
    refine Finset.sum_congr rfl fun j _ => ?_
    rw [Matrix.of_apply, Pi.smul_apply, smul_eq_mul, mul_comm]
  rw [h2, h3]
  exact Submodule.sum_mem _ fun j _ => Submodule.smul_mem _ _ (Submodule.subset_span ⟨j, rfl⟩)

theorem inverse_noInactiveTrail {N : Matrix (Fin (k + 1)) (Fin (k + 1)) F}
    (h : N * (Matrix.of fun i j : Fin (k + 1) => orbit Mᵀ j i) = 1) : NoInactiveTrail M := by
  intro x hx
  by_contra hcon
  push Not at hcon
  apply hx
  have h1 := mul_eq_one_comm.1 h
  have h2 : x ᵥ* (Matrix.of fun i j : Fin (k + 1) => orbit Mᵀ j i) = 0 := by
    ext j
    have := orbit_dot (M := Mᵀ) x j
    rw [Matrix.transpose_transpose] at this
    show x ⬝ᵥ (fun i => orbit Mᵀ j i) = 0
    rw [this]
    exact hcon j j.isLt 0 rfl
  have h3 : x ᵥ* ((Matrix.of fun i j : Fin (k + 1) => orbit Mᵀ j i) * N) = 0 := by rw [← Matrix.vecMul_vecMul, h2, Matrix.zero_vecMul]
  rwa [h1, Matrix.vecMul_one] at h3

end

/-! ## The check -/

/-- The rows and the columns of the `t × t` matrix with the entries `m` -/
def rowsN (t : Nat) (m : List Nat) : List (List Nat) := (List.range t).map fun i => tabN t fun j => nth m (i * t + j)
def colsN (t : Nat) (m : List Nat) : List (List Nat) := (List.range t).map fun i => tabN t fun j => nth m (j * t + i)

/-- `N` is the inverse of the matrix with the columns `ws`. -/
def inverseN (p t : Nat) (N ws : List (List Nat)) : Bool :=
  allN t fun i => allN t fun j => Nat.beq (dotN (nthL N i) (nthL ws j) % p) (if i = j then 1 else 0) && Nat.beq (nthL N i).length t

/-- `w_t = ∑ a_j w_j` -/
def relationN (p t : Nat) (a : List Nat) (ws : List (List Nat)) : Bool :=
  allN t fun i => Nat.beq ((sumN t fun j => nth a (t - 1 - j) * nth (nthL ws j) i) % p) (nth (nthL ws t) i)

/-- Certificates `N`, `NT` for tests 1 and 2, `a` and `cs` for test 3 -/
def checkTests (p t : Nat) (m : List Nat) (N NT : List (List Nat)) (a : List Nat) (cs : List (List Nat)) : Bool :=
  (forceLL (colsN t m) fun cols => iterN (mulN p cols) t (tabN t fun i => if i = 0 then 1 else 0) fun ws => inverseN p t NT ws) &&
  (forceLL (rowsN t m) fun rows => iterN (mulN p rows) t (tabN t fun i => if i = 0 then 1 else 0) fun ws =>
    inverseN p t N ws && relationN p t a ws) && Nat.beq a.length t &&
  iterN (shiftN p a) (4 * t * (t - 1)) (List.replicate (t - 1) 0 ++ [1]) fun ks =>
    allN (4 * t - 1) fun r => eqN p (comboN (r + 2) (nthL cs r) ks (List.replicate t 0)) (nthL ks 1)

theorem dotN_eq (l m : List Nat) : ∀ n, l.length ≤ n → dotN l m = ∑ i ∈ Finset.range n, nth l i * nth m i := by
  induction l generalizing m with
  | nil => intro n _; exact (Finset.sum_eq_zero fun i _ => by rw [show nth [] i = 0 from rfl, zero_mul]).symm
  | cons x xs ih =>
    intro n hn
    obtain ⟨n, rfl⟩ : ∃ n', n = n' + 1 := ⟨n - 1, by rw [List.length_cons] at hn; omega⟩
    cases m with
    | nil => exact (Finset.sum_eq_zero fun i _ => by rw [show nth [] i = 0 from rfl, mul_zero]).symm
    | cons y ys =>
      rw [Finset.sum_range_succ']
      show x * y + dotN xs ys = _
      rw [ih ys n (by simpa using hn), add_comm]
      rfl

theorem dotN_cast {F : Type} [Field F] {t : Nat} {l m : List Nat} (h : l.length ≤ t) :
    ((dotN l m : Nat) : F) = ∑ i : Fin t, (nth l i : F) * (nth m i : F) := by
  rw [dotN_eq l m t h, ← Fin.sum_univ_eq_sum_range (fun i => nth l i * nth m i)]
  push_cast
  rfl

section
variable {F : Type} [Field F] {k p : Nat} {M : Matrix (Fin (k + 1)) (Fin (k + 1)) F}

/-- The vectors are the multiples of `e0`. -/
theorem mulN_orbit (hp : (p : F) = 0) {rows : List (List Nat)} (hr : rows.length = k + 1) (hrl : ∀ r ∈ rows, r.length = k + 1)
    (hM : ∀ i j : Fin (k + 1), (nth (nthL rows i) j : F) = M i j) (n : Nat) (i : Fin (k + 1)) :
    (nth ((mulN p rows)^[n] (tabN (k + 1) fun i => if i = 0 then 1 else 0)) i : F) = orbit M n i := by
  induction n generalizing i with
  | zero =>
    rw [Function.iterate_zero, id_eq, nth_tabN _ i.isLt, orbit_zero, e0, Pi.single_apply]
    by_cases h : i = 0
    · subst h; simp
    · rw [if_neg h, if_neg (fun h1 : i.val = 0 => h (Fin.ext h1)), Nat.cast_zero]
  | succ n ih =>
    rw [Function.iterate_succ_apply', mulN, nth_lt (by rw [List.length_map, hr]; exact i.isLt), List.getElem_map, natMod_cast hp,
      dotN_cast (t := k + 1) (hrl _ (List.getElem_mem _)).le, ← orbit_succ, Matrix.mulVec, _root_.dotProduct]
    refine Finset.sum_congr rfl fun j _ => ?_
    rw [ih j, ← hM i j, nthL_lt (by rw [hr]; exact i.isLt)]

theorem inverseN_sound (hp : (p : F) = 0) {rows N : List (List Nat)} (hr : rows.length = k + 1) (hrl : ∀ r ∈ rows, r.length = k + 1)
    (hM : ∀ i j : Fin (k + 1), (nth (nthL rows i) j : F) = M i j)
    (h : inverseN p (k + 1) N ((List.range (k + 1 + 1)).map fun j => (mulN p rows)^[j] (tabN (k + 1) fun i => if i = 0 then 1 else 0)) = true) :
    (Matrix.of fun i j : Fin (k + 1) => (nth (nthL N i) j : F)) * (Matrix.of fun i j : Fin (k + 1) => orbit M j i) = 1 := by
  ext i j
  have h1 := allN_iff.1 (allN_iff.1 h i i.isLt) j j.isLt
  rw [Bool.and_eq_true] at h1
  have h2 := congrArg (Nat.cast (R := F)) (beqN h1.1)
  have hj := j.isLt
  rw [natMod_cast hp, dotN_cast (t := k + 1) (beqN h1.2).le, nthL_lt (l := List.map _ _) (by rw [List.length_map, List.length_range]; omega),
    List.getElem_map, List.getElem_range] at h2
  rw [Matrix.mul_apply, Matrix.one_apply]
  simp only [mulN_orbit hp hr hrl hM] at h2
  simp only [Matrix.of_apply]
  rw [h2]
  by_cases hij : i = j
  · rw [if_pos hij, if_pos (congrArg Fin.val hij), Nat.cast_one]
  · rw [if_neg hij, if_neg (fun h' => hij (Fin.ext h')), Nat.cast_zero]

theorem evN_sum (a : List Nat) : evN M a = ∑ j ∈ Finset.range a.length, (nth a (a.length - 1 - j) : F) • orbit M j := by
  induction a with
  | nil => rfl
  | cons x xs ih =>
    rw [List.length_cons, Finset.sum_range_succ, evN, ih]
    refine (add_comm _ _).trans (congrArg₂ _ ?_ ?_)
    · refine Finset.sum_congr rfl fun j hj => ?_
      have := Finset.mem_range.1 hj
      rw [show xs.length + 1 - 1 - j = xs.length - 1 - j + 1 by omega]
      rfl
    · rw [show xs.length + 1 - 1 - xs.length = 0 by omega]; rfl

theorem relationN_sound (hp : (p : F) = 0) {rows : List (List Nat)} {a : List Nat} (ha : a.length = k + 1) (hr : rows.length = k + 1)
    (hrl : ∀ r ∈ rows, r.length = k + 1) (hM : ∀ i j : Fin (k + 1), (nth (nthL rows i) j : F) = M i j)
    (h : relationN p (k + 1) a ((List.range (k + 1 + 1)).map fun j => (mulN p rows)^[j] (tabN (k + 1) fun i => if i = 0 then 1 else 0)) = true) :
    evN M a = orbit M (k + 1) := by
  have hw : ∀ j, j ≤ k + 1 → ∀ i : Fin (k + 1), (nth (nthL ((List.range (k + 1 + 1)).map fun j => (mulN p rows)^[j]
      (tabN (k + 1) fun i => if i = 0 then 1 else 0)) j) i : F) = orbit M j i := by
    intro j hj i
    rw [nthL_lt (by rw [List.length_map, List.length_range]; omega), List.getElem_map, List.getElem_range, mulN_orbit hp hr hrl hM]
  ext i
  have h1 := congrArg (Nat.cast (R := F)) (beqN (allN_iff.1 h i i.isLt))
  rw [natMod_cast hp, sumN_cast, hw _ le_rfl] at h1
  rw [← h1, evN_sum, ha, Finset.sum_apply, ← Fin.sum_univ_eq_sum_range (fun j => ((nth a (k + 1 - 1 - j) : F) • orbit M j) i)]
  refine Finset.sum_congr rfl fun j _ => ?_
  rw [Nat.cast_mul, hw _ j.isLt.le, Pi.smul_apply, smul_eq_mul]

theorem evN_start (n : Nat) : evN M (List.replicate n 0 ++ [1]) = orbit M 0 := by
  induction n with
  | zero => show ((1 : Nat) : F) • orbit M 0 + 0 = _; simp
  | succ n ih =>
    rw [List.replicate_succ, List.cons_append, evN, ih]
    simp

theorem evN_zeros (n : Nat) : evN M (List.replicate n 0) = 0 := by
  induction n with
  | zero => rfl
  | succ n ih => rw [List.replicate_succ, evN, ih]; simp

theorem rowsN_spec (t : Nat) (m : List Nat) : (rowsN t m).length = t ∧ (∀ r ∈ rowsN t m, r.length = t) ∧
    ∀ i j : Fin t, nth (nthL (rowsN t m) i) j = nth m (i * t + j) := by
  refine ⟨by simp [rowsN], fun r hr => ?_, fun i j => ?_⟩
  · obtain ⟨i, -, rfl⟩ := List.mem_map.1 hr
    simp [tabN]
  · rw [nthL_lt (by simp [rowsN])]
    simp only [rowsN, List.getElem_map, List.getElem_range]
    rw [nth_tabN _ j.isLt]

theorem colsN_spec (t : Nat) (m : List Nat) : (colsN t m).length = t ∧ (∀ r ∈ colsN t m, r.length = t) ∧
    ∀ i j : Fin t, nth (nthL (colsN t m) i) j = nth m (j * t + i) := by
  refine ⟨by simp [colsN], fun r hr => ?_, fun i j => ?_⟩
  · obtain ⟨i, -, rfl⟩ := List.mem_map.1 hr
    simp [tabN]
  · rw [nthL_lt (by simp [colsN])]
    simp only [colsN, List.getElem_map, List.getElem_range]
    rw [nth_tabN _ j.isLt]

theorem checkTests_sound (hp : (p : F) = 0) (hk : 1 ≤ k) {m : List Nat} (hm : ∀ i j : Fin (k + 1), M i j = (nth m (i * (k + 1) + j) : F))
    {N NT cs : List (List Nat)} {a : List Nat} (h : checkTests p (k + 1) m N NT a cs = true) :
    algorithm1 M = (true, 0) ∧ algorithm2 M = true ∧ algorithm3 M = true := by
  rw [checkTests, forceLL_eq, forceLL_eq, iterN_eq, iterN_eq, iterN_eq] at h
  simp only [Bool.and_eq_true] at h
  obtain ⟨⟨⟨h1, h2, h3⟩, h4⟩, h5⟩ := h
  have ha := beqN h4
  obtain ⟨r1, r2, r3⟩ := rowsN_spec (k + 1) m
  obtain ⟨c1, c2, c3⟩ := colsN_spec (k + 1) m
  have hcyc : Cyclic M := inverse_cyclic (inverseN_sound hp r1 r2 (fun i j => by rw [r3, hm]) h2)
  have htrail : NoInactiveTrail M :=
    inverse_noInactiveTrail (inverseN_sound hp c1 c2 (fun i j => by rw [c3, Matrix.transpose_apply, hm]) h1)
  have hev : evN M a = orbit M (k + 1) := relationN_sound hp ha r1 r2 (fun i j => by rw [r3, hm]) h3
  refine ⟨algorithm1_of_noInactiveTrail htrail, algorithm2_iff.2 hcyc, algorithm3_iff.2 fun r hr2 hr4 => cyclic_pow hcyc ?_⟩
  obtain ⟨r, rfl⟩ : ∃ r', r = r' + 2 := ⟨r - 2, by omega⟩
  have hks := shiftN_iterate (M := M) hp ha (w := List.replicate k 0 ++ [1]) (by simp) hev (evN_start k)
  have h6 := (eqN_ev (M := M) hp _ _ (allN_iff.1 h5 r (by omega))).2
  have hlen : 1 ≤ 4 * (k + 1) * (k + 1 - 1) := by
    have := Nat.mul_le_mul (show 1 ≤ 4 * (k + 1) by omega) (show 1 ≤ k + 1 - 1 by omega)
    omega
  rw [nthL_lt (l := List.map _ _) (by rw [List.length_map, List.length_range]; omega), List.getElem_map, List.getElem_range, Nat.add_sub_cancel,
    (hks 1).2] at h6
  rw [← h6]
  refine comboN_ev (t := k + 1) _ _ _ 0 (by simp) (fun i hi => ?_) (by rw [evN_zeros]; exact Submodule.zero_mem _)
  rw [List.getElem_map, List.getElem_range, Nat.mul_zero, Nat.zero_add]
  exact hks i

end

end Poseidon
