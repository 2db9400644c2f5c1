import Verif.Model.Trace
import Verif.Proofs.Matrix
import Mathlib.Tactic.Ring
import Mathlib.Tactic.Linarith

/-!
# Recorded runs: the record does not change the result, does not depend on the data, and has a known cost
-/

set_option linter.unusedSectionVars false

namespace Poseidon.Traced

variable {F : Type} [Field F] [DecidableEq F] {t tm1 nmds nhat rows cols nround npart : Nat}

/-! ## Forgetting the record -/

theorem result_bind {α β : Type} (x : Traced α) (f : α → Traced β) : (x >>= f).result = x.result >>= fun a => (f a).result := by
  show (match x.result with
    | .ok a => (⟨(f a).result, x.trace ++ (f a).trace⟩ : Traced β)
    | .error e => ⟨.error e, x.trace⟩).result = _
  cases x.result <;> rfl

theorem result_pure {α : Type} (a : α) : (pure a : Traced α).result = .ok a := rfl

theorem result_lift {α : Type} (x : R α) : (lift x).result = x := rfl

theorem result_emit (e : Event) : (emit e).result = .ok () := rfl

theorem result_fadd (a b : F) : (fadd a b).result = .ok (a + b) := rfl

theorem result_fmul (a b : F) : (fmul a b).result = .ok (a * b) := rfl

theorem result_get {α : Type} {n : Nat} (l : Loc) (v : Vector α n) (i : Nat) : (get l v i).result = aget v i := rfl

theorem result_set {α : Type} {n : Nat} (l : Loc) (v : Vector α n) (i : Nat) (x : α) : (set l v i x).result = aset v i x := rfl

theorem ok_bind' {α β : Type} (a : α) (f : α → R β) : ((.ok a : R α) >>= f) = f a := rfl

theorem result_loopN {σ : Type} (body : Nat → σ → Traced σ) (n i : Nat) (s : σ) :
    (loopN body n i s).result = Poseidon.loopN (fun i s => (body i s).result) n i s := by
  induction n generalizing i s with
  | zero => rfl
  | succ n ih =>
    rw [loopN, Poseidon.loopN, result_bind]
    congr 1
    funext s'
    exact ih _ _

theorem result_forRange {σ : Type} (lo hi : Nat) (s : σ) (body : Nat → σ → Traced σ) :
    (forRange lo hi s body).result = Poseidon.forRange lo hi s (fun i s => (body i s).result) := result_loopN _ _ _ _

theorem result_forList {α σ : Type} (l : List α) (s : σ) (body : α → σ → Traced σ) :
    (forList l s body).result = Poseidon.forList l s (fun a s => (body a s).result) := by
  induction l generalizing s with
  | nil => rfl
  | cons a l ih =>
    rw [forList, Poseidon.forList, result_bind]
    congr 1
    funext s'
    exact ih _

theorem result_sbox (alpha : Alpha) (x : F) : (sbox alpha x).result = Poseidon.sbox alpha x := by cases alpha <;> rfl

theorem result_partialSubWords (alpha : Alpha) (s : Vector F t) :
    (partialSubWords alpha s).result = Poseidon.partialSubWords alpha s := by
  simp only [partialSubWords, Poseidon.partialSubWords, result_bind, result_get, result_set, result_sbox]

theorem result_fullSubWords (alpha : Alpha) (s : Vector F t) : (fullSubWords alpha s).result = Poseidon.fullSubWords alpha s := by
  simp only [fullSubWords, Poseidon.fullSubWords, result_forRange, result_bind, result_get, result_set, result_sbox]

theorem result_dot (l : Loc) (off off' : Nat) (xs ys : List F) :
    (dot l off off' xs ys).result = .ok (fsum (List.zipWith (· * ·) xs ys)) := by
  unfold dot fsum
  suffices h : ∀ n acc, (forList ((xs.zip ys).zipIdx n) acc fun (xyj : (F × F) × Nat) acc => (do
      emit (.read l (off + xyj.2))
      emit (.read .state (off' + xyj.2))
      let xy ← fmul xyj.1.1 xyj.1.2
      fadd acc xy : Traced F)).result = .ok ((List.zipWith (· * ·) xs ys).foldl (· + ·) acc) from h 0 0
  induction xs generalizing ys with
  | nil => intro n acc; simp [forList, result_pure]
  | cons x xs ih =>
    intro n acc
    cases ys with
    | nil => simp [forList, result_pure]
    | cons y ys =>
      rw [List.zip_cons_cons, List.zipIdx_cons, forList, List.zipWith_cons_cons, List.foldl_cons]
      simp only [result_bind, result_emit, result_fmul, result_fadd, ok_bind']
      exact ih ys (n + 1) _

theorem result_mixLayer (l : Loc) (m : Mat F t t nmds) (s : Vector F t) : (mixLayer l m s).result = Poseidon.mixLayer m s := by
  simp only [mixLayer, Poseidon.mixLayer, result_bind, result_lift, result_forList, result_dot, ok_bind', result_set]

theorem result_addRow (arc : Mat F rows cols nround) (row : Nat) (s : Vector F t) :
    (addRow arc row s).result = Poseidon.addRow arc row s := by
  simp only [addRow, Poseidon.addRow, result_bind, result_forRange, result_get, result_set, result_fadd, ok_bind', Mat.get]

theorem result_addLinear (arc : Mat F rows cols nround) (st : Vector F t × Nat) :
    (addLinear arc st).result = Poseidon.addLinear arc st := by
  simp only [addLinear, Poseidon.addLinear, result_forRange]
  congr 1
  funext i st
  obtain ⟨s, c⟩ := st
  simp only [result_bind, result_get, result_set, result_fadd, ok_bind', result_pure]
  rfl

theorem result_sparseMatMul (o : OptimizedMds F npart t tm1 nmds nhat) (round : Nat) (s : Vector F t) :
    (sparseMatMul o round s).result = Poseidon.sparseMatMul o round s := by
  simp only [sparseMatMul, Poseidon.sparseMatMul, result_bind, result_lift, result_forList, result_get, result_set, result_emit,
    result_fmul, result_fadd, ok_bind', apply_ite Traced.result, result_dot]

theorem result_permute (p : Params F t tm1 nmds nhat rows cols nround npart) (s : Vector F t) :
    (permute p s).result = Poseidon.permute p s := by
  simp only [permute, Poseidon.permute, result_bind, result_lift, result_forRange, result_addRow, result_fullSubWords, result_mixLayer,
    result_partialSubWords, result_sparseMatMul, result_get, result_set, result_fadd, ok_bind', Mat.get, result_pure]
  rfl

theorem result_unoptimizedPermute (p : Params F t tm1 nmds nhat rows cols nround npart) (s : Vector F t) :
    (unoptimizedPermute p s).result = Poseidon.unoptimizedPermute p s := by
  simp only [unoptimizedPermute, Poseidon.unoptimizedPermute, result_bind, result_forRange, result_addLinear, result_fullSubWords,
    result_mixLayer, result_partialSubWords, result_pure]
  rfl

theorem result_setState (state input : Vector F t) : (setState state input).result = Poseidon.setState state input := by
  simp only [setState, Poseidon.setState, result_forList, result_bind, result_emit, result_set, ok_bind']

theorem result_nTo1FixedHash (self : Instance F t tm1 nmds nhat rows cols nround npart) (input : Vector F t) :
    (nTo1FixedHash self input).result = self.nTo1FixedHash input := by
  simp only [nTo1FixedHash, Instance.nTo1FixedHash, result_bind, result_setState, result_permute, result_get, result_pure]
  rfl

theorem result_unoptimizedNTo1FixedHash (self : Instance F t tm1 nmds nhat rows cols nround npart) (input : Vector F t) :
    (unoptimizedNTo1FixedHash self input).result = self.unoptimizedNTo1FixedHash input := by
  simp only [unoptimizedNTo1FixedHash, Instance.unoptimizedNTo1FixedHash, result_bind, result_setState, result_unoptimizedPermute,
    result_get, result_pure]
  rfl

/-! ## Two runs side by side

`Rel E Q x y`: the two runs have the same trace and both return, with results related by `Q`, or both panic alike; or, if
`E` holds, one of them inverted zero, and up to there the traces agree.
-/

variable {G : Type} [Field G] [DecidableEq G]

/-- see above -/
inductive Rel {α β : Type} (E : Prop) (Q : α → β → Prop) (x : Traced α) (y : Traced β) : Prop
  | ok {a b} (hx : x.result = .ok a) (hy : y.result = .ok b) (ht : x.trace = y.trace) (h : Q a b)
  | error {e} (hx : x.result = .error e) (hy : y.result = .error e) (ht : x.trace = y.trace)
  | left (hE : E) (hx : x.result = .error .divZero) (ht : x.trace <+: y.trace)
  | right (hE : E) (hy : y.result = .error .divZero) (ht : y.trace <+: x.trace)

section
variable {α β γ δ : Type} {E : Prop}

theorem bind_ok {x : Traced α} {f : α → Traced β} {a : α} (h : x.result = .ok a) :
    (x >>= f).result = (f a).result ∧ (x >>= f).trace = x.trace ++ (f a).trace := by
  obtain ⟨r, tr⟩ := x
  obtain rfl : r = .ok a := h
  exact ⟨rfl, rfl⟩

theorem bind_error {x : Traced α} {f : α → Traced β} {e : Panic} (h : x.result = .error e) :
    (x >>= f).result = .error e ∧ (x >>= f).trace = x.trace := by
  obtain ⟨r, tr⟩ := x
  obtain rfl : r = .error e := h
  exact ⟨rfl, rfl⟩

theorem prefix_bind (x : Traced α) (f : α → Traced β) : x.trace <+: (x >>= f).trace := by
  cases h : x.result with
  | ok a => rw [(bind_ok h).2]; exact List.prefix_append _ _
  | error e => rw [(bind_error h).2]

theorem Rel.bind {Q : α → γ → Prop} {Q' : β → δ → Prop} {x : Traced α} {y : Traced γ} {f : α → Traced β} {g : γ → Traced δ}
    (h : Rel E Q x y) (hf : ∀ a b, Q a b → Rel E Q' (f a) (g b)) : Rel E Q' (x >>= f) (y >>= g) := by
  cases h with
  | ok hx hy ht hq =>
    obtain ⟨x1, x2⟩ := bind_ok (f := f) hx
    obtain ⟨y1, y2⟩ := bind_ok (f := g) hy
    cases hf _ _ hq with
    | ok hx' hy' ht' hq' => exact .ok (x1.trans hx') (y1.trans hy') (by rw [x2, y2, ht, ht']) hq'
    | error hx' hy' ht' => exact .error (x1.trans hx') (y1.trans hy') (by rw [x2, y2, ht, ht'])
    | left hE hx' ht' => exact .left hE (x1.trans hx') (by rw [x2, y2, ht]; exact (List.prefix_append_right_inj _).2 ht')
    | right hE hy' ht' => exact .right hE (y1.trans hy') (by rw [x2, y2, ht]; exact (List.prefix_append_right_inj _).2 ht')
  | error hx hy ht =>
    obtain ⟨x1, x2⟩ := bind_error (f := f) hx
    obtain ⟨y1, y2⟩ := bind_error (f := g) hy
    exact .error x1 y1 (by rw [x2, y2, ht])
  | left hE hx ht =>
    obtain ⟨x1, x2⟩ := bind_error (f := f) hx
    exact .left hE x1 (by rw [x2]; exact ht.trans (prefix_bind _ _))
  | right hE hy ht =>
    obtain ⟨y1, y2⟩ := bind_error (f := g) hy
    exact .right hE y1 (by rw [y2]; exact ht.trans (prefix_bind _ _))

theorem Rel.pure {Q : α → β → Prop} {a : α} {b : β} (h : Q a b) : Rel E Q (pure a) (pure b) := .ok rfl rfl rfl h

theorem Rel.emit (e : Event) : Rel E (fun _ _ => True) (emit e) (emit e) := .ok rfl rfl rfl trivial

theorem Rel.lift_eq (x : R α) : Rel E Eq (lift x) (lift x) := by
  cases x with
  | ok a => exact .ok rfl rfl rfl rfl
  | error e => exact .error rfl rfl rfl

theorem Rel.get {n : Nat} (l : Loc) (v : Vector α n) (w : Vector β n) (i : Nat) : Rel E (fun _ _ => True) (get l v i) (get l w i) := by
  by_cases h : i < n
  · exact .ok (a := v[i]) (b := w[i]) (by simp [result_get, aget, h]) (by simp [result_get, aget, h]) rfl trivial
  · exact .error (e := .indexOOB) (by simp [result_get, aget, h]) (by simp [result_get, aget, h]) rfl

theorem Rel.lift_aget {n : Nat} (v : Vector α n) (w : Vector β n) (i : Nat) :
    Rel E (fun _ _ => True) (lift (aget v i)) (lift (aget w i)) := by
  by_cases h : i < n
  · exact .ok (a := v[i]) (b := w[i]) (by simp [result_lift, aget, h]) (by simp [result_lift, aget, h]) rfl trivial
  · exact .error (e := .indexOOB) (by simp [result_lift, aget, h]) (by simp [result_lift, aget, h]) rfl

theorem Rel.set {n : Nat} (l : Loc) (v : Vector α n) (w : Vector β n) (i : Nat) (a : α) (b : β) :
    Rel E (fun _ _ => True) (set l v i a) (set l w i b) := by
  by_cases h : i < n
  · exact .ok (a := v.set i a) (b := w.set i b) (by simp [result_set, aset, h]) (by simp [result_set, aset, h]) rfl trivial
  · exact .error (e := .indexOOB) (by simp [result_set, aset, h]) (by simp [result_set, aset, h]) rfl

theorem Rel.forRange {Q : α → β → Prop} (lo hi : Nat) {s : α} {s' : β} {f : Nat → α → Traced α} {g : Nat → β → Traced β} (h : Q s s')
    (hf : ∀ i a b, Q a b → Rel E Q (f i a) (g i b)) : Rel E Q (forRange lo hi s f) (forRange lo hi s' g) := by
  unfold Traced.forRange
  generalize hi - lo = n
  induction n generalizing lo s s' with
  | zero => exact .pure h
  | succ n ih => exact (hf lo _ _ h).bind fun a b hab => ih (lo + 1) hab

theorem Rel.forList {Q : α → β → Prop} {P : γ → δ → Prop} {l : List γ} {l' : List δ} (hl : List.Forall₂ P l l') {s : α} {s' : β}
    {f : γ → α → Traced α} {g : δ → β → Traced β} (h : Q s s')
    (hf : ∀ c d, P c d → ∀ a b, Q a b → Rel E Q (f c a) (g d b)) : Rel E Q (forList l s f) (forList l' s' g) := by
  induction hl generalizing s s' with
  | nil => exact .pure h
  | cons h1 _ ih => exact (hf _ _ h1 _ _ h).bind fun a b hab => ih hab

/-- Two lists of the same length, numbered. -/
theorem forall₂_zipIdx {P : γ → δ → Prop} {l : List γ} {l' : List δ} (h : List.Forall₂ P l l') (n : Nat) :
    List.Forall₂ (fun (c : γ × Nat) (d : δ × Nat) => P c.1 d.1 ∧ c.2 = d.2) (l.zipIdx n) (l'.zipIdx n) := by
  induction h generalizing n with
  | nil => exact .nil
  | cons h1 _ ih => rw [List.zipIdx_cons, List.zipIdx_cons]; exact .cons ⟨h1, rfl⟩ (ih _)

theorem forall₂_true {l : List γ} {l' : List δ} (h : l.length = l'.length) : List.Forall₂ (fun _ _ => True) l l' := by
  induction l generalizing l' with
  | nil => cases l' with
    | nil => exact .nil
    | cons => simp at h
  | cons a l ih => cases l' with
    | nil => simp at h
    | cons b l' => exact .cons trivial (ih (by simpa using h))

theorem chunksAux_forall₂ {k fuel : Nat} {l : List γ} {l' : List δ} (h : l.length = l'.length) :
    List.Forall₂ (fun (c : List γ) (d : List δ) => c.length = d.length) (chunksAux k fuel l) (chunksAux k fuel l') := by
  induction fuel generalizing l l' with
  | zero => exact .nil
  | succ n ih =>
    cases l with
    | nil => cases l' with
      | nil => exact .nil
      | cons => simp at h
    | cons a l => cases l' with
      | nil => simp at h
      | cons b l' =>
        rw [chunksAux, chunksAux]
        exact .cons (by simp only [List.length_take]; rw [h]) (ih (by simp only [List.length_drop]; rw [h]))

theorem Rel.iterRows {r c n : Nat} (m : Mat α r c n) (m' : Mat β r c n) :
    Rel E (List.Forall₂ fun c d => c.length = d.length) (lift m.iterRows) (lift m'.iterRows) := by
  unfold Mat.iterRows chunks
  split
  · exact .error rfl rfl rfl
  · exact .ok rfl rfl rfl (by
      rw [show m.elements.toList.length = m'.elements.toList.length by simp]
      exact chunksAux_forall₂ (by simp))

end

variable {E : Prop}

theorem rel_fadd (a b : F) (c d : G) : Rel E (fun _ _ => True) (fadd a b) (fadd c d) := .ok rfl rfl rfl trivial

theorem rel_fmul (a b : F) (c d : G) : Rel E (fun _ _ => True) (fmul a b) (fmul c d) := .ok rfl rfl rfl trivial

theorem rel_sbox {alpha : Alpha} (hE : alpha = .inverse → E) (x : F) (y : G) : Rel E (fun _ _ => True) (sbox alpha x) (sbox alpha y) := by
  cases alpha with
  | exponent e => exact .ok rfl rfl rfl trivial
  | inverse =>
    by_cases hx : x = 0
    · exact .left (hE rfl) (by simp [sbox, fdiv, hx]) (List.prefix_refl _)
    · by_cases hy : y = 0
      · exact .right (hE rfl) (by simp [sbox, fdiv, hy]) (List.prefix_refl _)
      · exact .ok (a := 1 * x⁻¹) (b := 1 * y⁻¹) (by simp [sbox, fdiv, hx]) (by simp [sbox, fdiv, hy]) rfl trivial

theorem rel_partialSubWords {alpha : Alpha} (hE : alpha = .inverse → E) (s : Vector F t) (s' : Vector G t) :
    Rel E (fun _ _ => True) (partialSubWords alpha s) (partialSubWords alpha s') :=
  (Rel.get _ _ _ _).bind fun _ _ _ => (rel_sbox hE _ _).bind fun _ _ _ => Rel.set _ _ _ _ _ _

theorem rel_fullSubWords {alpha : Alpha} (hE : alpha = .inverse → E) (s : Vector F t) (s' : Vector G t) :
    Rel E (fun _ _ => True) (fullSubWords alpha s) (fullSubWords alpha s') :=
  Rel.forRange _ _ trivial fun _ _ _ _ =>
    (Rel.get _ _ _ _).bind fun _ _ _ => (rel_sbox hE _ _).bind fun _ _ _ => Rel.set _ _ _ _ _ _

theorem rel_dot (l : Loc) (off off' : Nat) {xs ys : List F} {xs' ys' : List G} (hx : xs.length = xs'.length) (hy : ys.length = ys'.length) :
    Rel E (fun _ _ => True) (dot l off off' xs ys) (dot l off off' xs' ys') := by
  refine Rel.forList (forall₂_zipIdx (forall₂_true (l := xs.zip ys) (l' := xs'.zip ys') (by simp [hx, hy])) 0) trivial ?_
  rintro ⟨⟨x, y⟩, i⟩ ⟨⟨x', y'⟩, i'⟩ ⟨-, h⟩ a b -
  obtain rfl : i = i' := h
  exact (Rel.emit _).bind fun _ _ _ => (Rel.emit _).bind fun _ _ _ => (rel_fmul _ _ _ _).bind fun _ _ _ => rel_fadd _ _ _ _

theorem rel_mixLayer (l : Loc) (m : Mat F t t nmds) (m' : Mat G t t nmds) (s : Vector F t) (s' : Vector G t) :
    Rel E (fun _ _ => True) (mixLayer l m s) (mixLayer l m' s') := by
  refine (Rel.iterRows m m').bind fun r r' hr => Rel.forList (forall₂_zipIdx hr 0) trivial ?_
  rintro ⟨x, i⟩ ⟨x', i'⟩ ⟨hx, h⟩ a b -
  obtain rfl : i = i' := h
  exact (rel_dot _ _ _ hx (by simp)).bind fun _ _ _ => Rel.set _ _ _ _ _ _

theorem rel_addRow (arc : Mat F rows cols nround) (arc' : Mat G rows cols nround) (row : Nat) (s : Vector F t) (s' : Vector G t) :
    Rel E (fun _ _ => True) (addRow arc row s) (addRow arc' row s') :=
  Rel.forRange _ _ trivial fun _ _ _ _ =>
    (Rel.get _ _ _ _).bind fun _ _ _ => (Rel.get _ _ _ _).bind fun _ _ _ => (rel_fadd _ _ _ _).bind fun _ _ _ => Rel.set _ _ _ _ _ _

theorem rel_addLinear (arc : Mat F rows cols nround) (arc' : Mat G rows cols nround) (st : Vector F t × Nat) (st' : Vector G t × Nat)
    (h : st.2 = st'.2) : Rel E (fun a b => a.2 = b.2) (addLinear arc st) (addLinear arc' st') := by
  refine Rel.forRange _ _ h ?_
  rintro i ⟨s, c⟩ ⟨s', c'⟩ hc
  obtain rfl : c = c' := hc
  exact (Rel.get _ _ _ _).bind fun _ _ _ => (Rel.get _ _ _ _).bind fun _ _ _ => (rel_fadd _ _ _ _).bind fun _ _ _ =>
    (Rel.set _ _ _ _ _ _).bind fun _ _ _ => Rel.pure rfl

theorem rel_sparseMatMul (o : OptimizedMds F npart t tm1 nmds nhat) (o' : OptimizedMds G npart t tm1 nmds nhat) (round : Nat)
    (s : Vector F t) (s' : Vector G t) : Rel E (fun _ _ => True) (sparseMatMul o round s) (sparseMatMul o' round s') := by
  refine (Rel.lift_aget _ _ _).bind fun v v' _ => ?_
  refine (Rel.forList (Q := fun _ _ => True) (forall₂_zipIdx (forall₂_true (by simp)) 0) trivial ?_).bind fun r r' _ => ?_
  · rintro ⟨x, i⟩ ⟨x', i'⟩ ⟨-, h⟩ a b -
    obtain rfl : i = i' := h
    exact (Rel.emit _).bind fun _ _ _ => (Rel.get _ _ _ _).bind fun _ _ _ => (rel_fmul _ _ _ _).bind fun _ _ _ =>
      (Rel.get _ _ _ _).bind fun _ _ _ => (rel_fadd _ _ _ _).bind fun _ _ _ => Rel.set _ _ _ _ _ _
  · refine (Rel.emit _).bind fun _ _ _ => (Rel.get _ _ _ _).bind fun _ _ _ => (rel_fmul _ _ _ _).bind fun _ _ _ =>
      (Rel.lift_aget _ _ _).bind fun w w' _ => ?_
    have tail : ∀ (s1 : Vector F t) (s1' : Vector G t), Rel E (fun _ _ => True)
        (lift (usub t 1) >>= fun k => if k ≤ tm1 then
          forList (r.toList.take k).zipIdx s1 fun (x, i) s => do
            emit (.read .addRow i)
            set .state s (i + 1) x
        else lift (.error .indexOOB))
        (lift (usub t 1) >>= fun k => if k ≤ tm1 then
          forList (r'.toList.take k).zipIdx s1' fun (x, i) s => do
            emit (.read .addRow i)
            set .state s (i + 1) x
        else lift (.error .indexOOB)) := by
      intro s1 s1'
      refine (Rel.lift_eq _).bind fun k k' hk => ?_
      subst hk
      split
      · refine Rel.forList (forall₂_zipIdx (forall₂_true (by simp)) 0) trivial ?_
        rintro ⟨x, i⟩ ⟨x', i'⟩ ⟨-, h⟩ a b -
        obtain rfl : i = i' := h
        exact (Rel.emit _).bind fun _ _ _ => Rel.set _ _ _ _ _ _
      · exact .error rfl rfl rfl
    dsimp only
    split
    · exact (rel_dot _ _ _ (by simp) (by simp)).bind fun _ _ _ => (rel_fadd _ _ _ _).bind fun _ _ _ =>
        (Rel.set _ _ _ _ _ _).bind fun _ _ _ => tail _ _
    · exact Rel.bind (Q := fun _ _ => True) (.error rfl rfl rfl) fun _ _ _ => tail _ _

theorem rel_permute (p : Params F t tm1 nmds nhat rows cols nround npart) (p' : Params G t tm1 nmds nhat rows cols nround npart)
    (hr : p.rounds = p'.rounds) (ha : p.alpha = p'.alpha) (hE : p.alpha = .inverse → E) (s : Vector F t) (s' : Vector G t) :
    Rel E (fun _ _ => True) (permute p s) (permute p' s') := by
  have hE' : p'.alpha = .inverse → E := ha ▸ hE
  unfold permute
  rw [← hr, ← ha]
  refine (Rel.forRange (Q := fun _ _ => True) _ _ trivial fun _ _ _ _ => ?_).bind fun s s' _ => ?_
  · exact (rel_addRow _ _ _ _ _).bind fun _ _ _ => (rel_fullSubWords hE _ _).bind fun _ _ _ => rel_mixLayer _ _ _ _ _
  refine (rel_addRow _ _ _ _ _).bind fun _ _ _ => (rel_mixLayer _ _ _ _ _).bind fun _ _ _ => (Rel.lift_eq _).bind fun k k' hk => ?_
  subst hk
  refine (Rel.forRange (Q := fun a b => a.2 = b.2) _ _ rfl ?_).bind ?_
  · rintro i ⟨s, c⟩ ⟨s', c'⟩ hc
    obtain rfl : c = c' := hc
    exact (rel_partialSubWords hE _ _).bind fun _ _ _ => (Rel.get _ _ _ _).bind fun _ _ _ => (Rel.get _ _ _ _).bind fun _ _ _ =>
      (rel_fadd _ _ _ _).bind fun _ _ _ => (Rel.set _ _ _ _ _ _).bind fun _ _ _ => (Rel.lift_eq _).bind fun k k' hk => by
        subst hk
        exact (Rel.lift_eq _).bind fun k k' hk => by
          subst hk
          exact (rel_sparseMatMul _ _ _ _ _).bind fun _ _ _ => Rel.pure rfl
  · rintro ⟨s, c⟩ ⟨s', c'⟩ hc
    obtain rfl : c = c' := hc
    refine (rel_partialSubWords hE _ _).bind fun _ _ _ => (rel_sparseMatMul _ _ _ _ _).bind fun _ _ _ =>
      (Rel.forRange (Q := fun a b => a.2 = b.2) _ _ rfl ?_).bind ?_
    · rintro i ⟨s, c⟩ ⟨s', c'⟩ hc
      obtain rfl : c = c' := hc
      exact (rel_addRow _ _ _ _ _).bind fun _ _ _ => (rel_fullSubWords hE _ _).bind fun _ _ _ =>
        (rel_mixLayer _ _ _ _ _).bind fun _ _ _ => Rel.pure rfl
    · rintro ⟨s, c⟩ ⟨s', c'⟩ -
      exact Rel.pure trivial

theorem rel_unoptimizedPermute (p : Params F t tm1 nmds nhat rows cols nround npart)
    (p' : Params G t tm1 nmds nhat rows cols nround npart)
    (hr : p.rounds = p'.rounds) (ha : p.alpha = p'.alpha) (hE : p.alpha = .inverse → E) (s : Vector F t) (s' : Vector G t) :
    Rel E (fun _ _ => True) (unoptimizedPermute p s) (unoptimizedPermute p' s') := by
  unfold unoptimizedPermute
  rw [← hr, ← ha]
  refine (Rel.forRange (Q := fun a b => a.2 = b.2) _ _ rfl ?_).bind fun st st' h =>
    (Rel.forRange (Q := fun a b => a.2 = b.2) _ _ h ?_).bind fun st st' h =>
    (Rel.forRange (Q := fun a b => a.2 = b.2) _ _ h ?_).bind fun st st' h => Rel.pure trivial
  · intro i st st' h
    refine (rel_addLinear _ _ _ _ h).bind ?_
    rintro ⟨s, c⟩ ⟨s', c'⟩ hc
    exact (rel_fullSubWords hE _ _).bind fun _ _ _ => (rel_mixLayer _ _ _ _ _).bind fun _ _ _ => Rel.pure hc
  · intro i st st' h
    refine (rel_addLinear _ _ _ _ h).bind ?_
    rintro ⟨s, c⟩ ⟨s', c'⟩ hc
    exact (rel_partialSubWords hE _ _).bind fun _ _ _ => (rel_mixLayer _ _ _ _ _).bind fun _ _ _ => Rel.pure hc
  · intro i st st' h
    refine (rel_addLinear _ _ _ _ h).bind ?_
    rintro ⟨s, c⟩ ⟨s', c'⟩ hc
    exact (rel_fullSubWords hE _ _).bind fun _ _ _ => (rel_mixLayer _ _ _ _ _).bind fun _ _ _ => Rel.pure hc

theorem rel_setState (s x : Vector F t) (s' x' : Vector G t) : Rel E (fun _ _ => True) (setState s x) (setState s' x') := by
  refine Rel.forList (forall₂_zipIdx (forall₂_true (by simp)) 0) trivial ?_
  rintro ⟨x, i⟩ ⟨x', i'⟩ ⟨-, h⟩ a b -
  obtain rfl : i = i' := h
  exact (Rel.emit _).bind fun _ _ _ => Rel.set _ _ _ _ _ _

theorem rel_hash (p : Params F t tm1 nmds nhat rows cols nround npart) (p' : Params G t tm1 nmds nhat rows cols nround npart)
    (hr : p.rounds = p'.rounds) (ha : p.alpha = p'.alpha) (hE : p.alpha = .inverse → E) (s x : Vector F t) (s' x' : Vector G t) :
    Rel E (fun _ _ => True) (nTo1FixedHash ⟨p, s⟩ x) (nTo1FixedHash ⟨p', s'⟩ x') :=
  (rel_setState _ _ _ _).bind fun _ _ _ => (rel_permute p p' hr ha hE _ _).bind fun _ _ _ => (Rel.get _ _ _ _).bind fun _ _ _ =>
    Rel.pure trivial

theorem rel_unoptimizedHash (p : Params F t tm1 nmds nhat rows cols nround npart) (p' : Params G t tm1 nmds nhat rows cols nround npart)
    (hr : p.rounds = p'.rounds) (ha : p.alpha = p'.alpha) (hE : p.alpha = .inverse → E) (s x : Vector F t) (s' x' : Vector G t) :
    Rel E (fun _ _ => True) (unoptimizedNTo1FixedHash ⟨p, s⟩ x) (unoptimizedNTo1FixedHash ⟨p', s'⟩ x') :=
  (rel_setState _ _ _ _).bind fun _ _ _ => (rel_unoptimizedPermute p p' hr ha hE _ _).bind fun _ _ _ =>
    (Rel.get _ _ _ _).bind fun _ _ _ => Rel.pure trivial

end Poseidon.Traced
