import Verif.Spec.Threads
import Verif.Proofs.Hash

/-!
# Hashing in place refines the model of `Permutation.lean`
-/

set_option linter.unusedSectionVars false

namespace Poseidon

namespace Prog

variable {F : Type} {α β σ : Type} {t : Nat}

theorem run_pure (a : α) (s : Vector F t) : (pure a : Prog F α).run s = (.ok a, s) := rfl

theorem run_bind (P : Prog F α) (f : α → Prog F β) (s : Vector F t) :
    (P >>= f).run s = match P.run s with
      | (.ok a, s') => (f a).run s'
      | (.error e, s') => (.error e, s') := by
  show (P.bind f).run s = _
  induction P generalizing s with
  | ret a => rfl
  | panic e => rfl
  | rd i k ih =>
    simp only [bind, run]
    split
    · exact ih _ _
    · rfl
  | wr i x k ih =>
    simp only [bind, run]
    split
    · exact ih _
    · rfl

theorem run_lift (r : R α) (s : Vector F t) : (lift r : Prog F α).run s = (r, s) := by cases r <;> rfl

/-- A run without the state that a panic leaves behind. -/
def exec (P : Prog F α) (s : Vector F t) : R (α × Vector F t) :=
  match P.run s with
  | (.ok a, s') => .ok (a, s')
  | (.error e, _) => .error e

theorem exec_pure (a : α) (s : Vector F t) : (pure a : Prog F α).exec s = .ok (a, s) := rfl

theorem exec_bind (P : Prog F α) (f : α → Prog F β) (s : Vector F t) :
    (P >>= f).exec s = P.exec s >>= fun x => (f x.1).exec x.2 := by
  rw [exec, run_bind, exec]
  rcases P.run s with ⟨_ | a, s'⟩ <;> rfl

theorem exec_lift (r : R α) (s : Vector F t) : (lift r : Prog F α).exec s = r >>= fun a => .ok (a, s) := by
  rw [exec, run_lift]; cases r <;> rfl

theorem exec_read (i : Nat) (s : Vector F t) : (read i).exec s = aget s i >>= fun x => .ok (x, s) := by
  by_cases h : i < t <;> simp only [exec, read, run, aget, h, dite_true, dite_false] <;> rfl

theorem exec_write (i : Nat) (x : F) (s : Vector F t) : (write i x).exec s = aset s i x >>= fun s' => .ok ((), s') := by
  by_cases h : i < t <;> simp only [exec, write, run, aset, h, dite_true, dite_false] <;> rfl

theorem exec_loopN (body : Nat → σ → Prog F σ) (n i : Nat) (a : σ) (s : Vector F t) :
    (loopN body n i a).exec s = Poseidon.loopN (fun i x => (body i x.1).exec x.2) n i (a, s) := by
  induction n generalizing i a s with
  | zero => rfl
  | succ n ih =>
    rw [loopN, Poseidon.loopN, exec_bind]
    congr 1
    funext x
    exact ih _ _ _

theorem exec_forRange (lo hi : Nat) (a : σ) (body : Nat → σ → Prog F σ) (s : Vector F t) :
    (forRange lo hi a body).exec s = Poseidon.forRange lo hi (a, s) (fun i x => (body i x.1).exec x.2) := exec_loopN _ _ _ _ _

theorem exec_forList (l : List α) (a : σ) (body : α → σ → Prog F σ) (s : Vector F t) :
    (forList l a body).exec s = Poseidon.forList l (a, s) (fun i x => (body i x.1).exec x.2) := by
  induction l generalizing a s with
  | nil => rfl
  | cons x l ih =>
    rw [forList, Poseidon.forList, exec_bind]
    congr 1
    funext x
    exact ih _ _

/-- A loop under a change of representation. -/
theorem forRange_rep {σ τ : Type} (g : τ → σ) (lo hi : Nat) (a : τ) (body' : Nat → σ → R σ) (body : Nat → τ → R τ)
    (h : ∀ i a, body' i (g a) = body i a >>= fun b => .ok (g b)) :
    Poseidon.forRange lo hi (g a) body' = Poseidon.forRange lo hi a body >>= fun b => .ok (g b) := by
  unfold Poseidon.forRange
  generalize hi - lo = n
  induction n generalizing lo a with
  | zero => rfl
  | succ n ih =>
    rw [Poseidon.loopN, Poseidon.loopN, h, bind_assoc, bind_assoc]
    congr 1
    funext b
    exact ih _ _

theorem forList_rep {σ τ α : Type} (g : τ → σ) (l : List α) (a : τ) (body' : α → σ → R σ) (body : α → τ → R τ)
    (h : ∀ i a, body' i (g a) = body i a >>= fun b => .ok (g b)) :
    Poseidon.forList l (g a) body' = Poseidon.forList l a body >>= fun b => .ok (g b) := by
  induction l generalizing a with
  | nil => rfl
  | cons x l ih =>
    rw [Poseidon.forList, Poseidon.forList, h, bind_assoc, bind_assoc]
    congr 1
    funext b
    exact ih _

variable [Field F] [DecidableEq F] {tm1 nmds nhat rows cols nround npart : Nat}

theorem exec_partialSubWords (alpha : Alpha) (s : Vector F t) :
    (partialSubWords alpha).exec s = Poseidon.partialSubWords alpha s >>= fun s' => .ok ((), s') := by
  simp only [partialSubWords, Poseidon.partialSubWords, exec_bind, exec_read, exec_lift, exec_write, bind_assoc, ok_bind]

theorem exec_fullSubWords (alpha : Alpha) (s : Vector F t) :
    (fullSubWords t alpha).exec s = Poseidon.fullSubWords alpha s >>= fun s' => .ok ((), s') := by
  rw [fullSubWords, Poseidon.fullSubWords, exec_forRange]
  refine forRange_rep (fun s => ((), s)) _ _ _ _ _ fun i s => ?_
  simp only [exec_bind, exec_read, exec_lift, exec_write, bind_assoc, ok_bind]

theorem exec_addRow (arc : Mat F rows cols nround) (row : Nat) (s : Vector F t) :
    (addRow t arc row).exec s = Poseidon.addRow arc row s >>= fun s' => .ok ((), s') := by
  rw [addRow, Poseidon.addRow, exec_forRange]
  refine forRange_rep (fun s => ((), s)) _ _ _ _ _ fun i s => ?_
  simp only [exec_bind, exec_read, exec_lift, exec_write, bind_assoc, ok_bind]

theorem exec_addLinear (arc : Mat F rows cols nround) (counter : Nat) (s : Vector F t) :
    (addLinear t arc counter).exec s = Poseidon.addLinear arc (s, counter) >>= fun x => .ok (x.2, x.1) := by
  rw [addLinear, Poseidon.addLinear, exec_forRange]
  refine forRange_rep (fun x : Vector F t × Nat => (x.2, x.1)) _ _ (s, counter) _ _ fun i x => ?_
  simp only [exec_bind, exec_read, exec_lift, exec_write, bind_assoc, ok_bind, exec_pure]
  rfl

theorem exec_setState (input s : Vector F t) : (setState input).exec s = .ok ((), input) := by
  rw [setState, exec_forList]
  refine (forList_rep (fun s => ((), s)) _ s _ (fun x s => aset s x.2 x.1) fun i s => ?_).trans ?_
  · exact exec_write _ _ _
  · have := setState_eq s input
    rw [Poseidon.setState] at this
    exact (congrArg (· >>= _) this).trans rfl

theorem exec_assign (new s : Vector F t) : (assign new).exec s = .ok ((), new) := exec_setState new s

theorem exec_dot (off : Nat) (xs : List F) (s : Vector F t) :
    (dot t off xs).exec s = .ok (fsum (List.zipWith (· * ·) xs (s.toList.drop off)), s) := by
  rw [dot, exec_forList, fsum]
  suffices h : ∀ (xs : List F) (n : Nat) (acc : F),
      Poseidon.forList ((xs.take (t - (off + n))).zipIdx n) (acc, s) (fun (x : F × Nat) (y : F × Vector F t) =>
        (do let z ← read (off + x.2); return y.1 + x.1 * z : Prog F F).exec y.2) =
      .ok ((List.zipWith (· * ·) xs (s.toList.drop (off + n))).foldl (· + ·) acc, s) from h xs 0 0
  intro xs
  induction xs with
  | nil => intro n acc; simp [Poseidon.forList]
  | cons x xs ih =>
    intro n acc
    by_cases hn : off + n < t
    · rw [show t - (off + n) = (t - (off + (n + 1))) + 1 by omega, List.take_succ_cons, List.zipIdx_cons, Poseidon.forList,
        List.drop_eq_getElem_cons (by simpa using hn), List.zipWith_cons_cons, List.foldl_cons]
      have hb : (do let z ← read (off + n); return acc + x * z : Prog F F).exec s = .ok (acc + x * s[off + n], s) := by
        simp only [exec_bind, exec_read, exec_pure, aget_lt _ hn, ok_bind]
      refine (congrArg (· >>= _) hb).trans ((ih (n + 1) _).trans ?_)
      simp [Nat.add_assoc]
    · rw [show t - (off + n) = 0 by omega, List.drop_eq_nil_of_le (by simpa using hn)]
      simp [Poseidon.forList]

theorem exec_mixLayer (m : Mat F t t nmds) (s : Vector F t) :
    (mixLayer m).exec s = Poseidon.mixLayer m s >>= fun s' => .ok ((), s') := by
  simp only [mixLayer, Poseidon.mixLayer, exec_bind, exec_lift, bind_assoc, ok_bind]
  congr 1
  funext rws
  rw [exec_forList]
  have h : ∀ acc : Vector F t, Poseidon.forList rws.zipIdx (acc, s)
      (fun (i : List F × Nat) (x : Vector F t × Vector F t) => (do
        let sum ← dot t 0 i.1
        lift (aset x.1 i.2 sum) : Prog F (Vector F t)).exec x.2) =
      Poseidon.forList rws.zipIdx acc (fun (row, i) new => aset new i (fsum (List.zipWith (· * ·) row s.toList))) >>=
        fun b => .ok (b, s) := by
    intro acc
    refine forList_rep (fun b => (b, s)) _ _ _ _ fun i a => ?_
    simp only [exec_bind, exec_dot, exec_lift, ok_bind, List.drop_zero]
  refine (congrArg (· >>= _) (h _)).trans ?_
  rw [bind_assoc]
  congr 1
  funext b
  rw [ok_bind]
  exact exec_assign _ _

theorem exec_ite (c : Prop) [Decidable c] (P Q : Prog F α) (s : Vector F t) :
    (if c then P else Q).exec s = if c then P.exec s else Q.exec s := by split <;> rfl

theorem exec_sparseMatMul (o : OptimizedMds F npart t tm1 nmds nhat) (round : Nat) (s : Vector F t) :
    (sparseMatMul o round).exec s = Poseidon.sparseMatMul o round s >>= fun s' => .ok ((), s') := by
  have h1 : ∀ (l : List (F × Nat)) (acc : Vector F tm1), Poseidon.forList l (acc, s)
      (fun (i : F × Nat) (x : Vector F tm1 × Vector F t) => (do
        let s0 ← read 0
        let si ← read (i.2 + 1)
        lift (aset x.1 i.2 (i.1 * s0 + si)) : Prog F (Vector F tm1)).exec x.2) =
      Poseidon.forList l acc (fun (x, i) acc => do
        let s0 ← aget s 0
        let si ← aget s (i + 1)
        aset acc i (x * s0 + si)) >>= fun b => .ok (b, s) := by
    intro l acc
    refine forList_rep (fun b => (b, s)) _ _ _ _ fun i a => ?_
    simp only [exec_bind, exec_read, exec_lift, ok_bind, bind_assoc]
  have h2 : ∀ (l : List (F × Nat)) (s : Vector F t), (forList l () fun (x, i) _ => write (i + 1) x : Prog F Unit).exec s =
      Poseidon.forList l s (fun (x, i) s => aset s (i + 1) x) >>= fun s' => .ok ((), s') := by
    intro l s
    rw [exec_forList]
    exact forList_rep (fun s => ((), s)) _ _ _ _ fun i s => exec_write _ _ _
  simp only [sparseMatMul, Poseidon.sparseMatMul, exec_bind, exec_lift, bind_assoc, ok_bind, exec_ite, exec_read, exec_write, exec_dot, h2]
  congr 1
  funext v
  rw [exec_forList]
  refine (congrArg (· >>= _) (h1 _ _)).trans ?_
  rw [bind_assoc]
  congr 1
  funext acc
  simp only [ok_bind]
  congr 1
  funext s0
  congr 1
  funext w
  split
  · simp only [bind_assoc]
    congr 1
    funext s'
    congr 1
    funext k
    split <;> rfl
  · rfl

theorem exec_permute (p : Params F t tm1 nmds nhat rows cols nround npart) (s : Vector F t) :
    (permute p).exec s = Poseidon.permute p s >>= fun s' => .ok ((), s') := by
  simp only [permute, Poseidon.permute, exec_bind, exec_lift, bind_assoc, exec_pure]
  have h1 := fun rf => forRange_rep (fun s : Vector F t => ((), s)) 0 rf s
    (fun i x => ((do addRow t p.optimizedArc i; fullSubWords t p.alpha; mixLayer p.mds : Prog F Unit)).exec x.2)
    (fun r s => do
      let s ← Poseidon.addRow p.optimizedArc r s
      let s ← Poseidon.fullSubWords p.alpha s
      Poseidon.mixLayer p.mds s) (fun i s => by
        simp only [exec_bind, exec_addRow, exec_fullSubWords, exec_mixLayer, bind_assoc, ok_bind])
  have h2 := fun lim (s : Vector F t) counter => forRange_rep (fun x : Vector F t × Nat => (x.2, x.1)) 0 lim (s, counter)
    (fun r x => ((do
      partialSubWords p.alpha
      let counter := x.1 + 1
      let y ← read 0
      let k ← lift (p.optimizedArc.get counter 0)
      write 0 (y + k)
      let idx ← lift (usub p.rounds.partialRounds r)
      let idx ← lift (usub idx 1)
      sparseMatMul p.optimizedMds idx
      return counter : Prog F Nat)).exec x.2)
    (fun r x => do
      let s ← Poseidon.partialSubWords p.alpha x.1
      let counter := x.2 + 1
      let x ← aget s 0
      let k ← p.optimizedArc.get counter 0
      let s ← aset s 0 (x + k)
      let idx ← usub p.rounds.partialRounds r
      let idx ← usub idx 1
      let s ← Poseidon.sparseMatMul p.optimizedMds idx s
      return (s, counter)) (fun r x => by
        simp only [exec_bind, exec_partialSubWords, exec_read, exec_lift, exec_write, exec_sparseMatMul, exec_pure, bind_assoc, ok_bind]
        rfl)
  have h3 := fun rf (s : Vector F t) counter => forRange_rep (fun x : Vector F t × Nat => (x.2, x.1)) 0 rf (s, counter)
    (fun r x => ((do
      addRow t p.optimizedArc x.1
      fullSubWords t p.alpha
      mixLayer p.mds
      return x.1 + 1 : Prog F Nat)).exec x.2)
    (fun r x => do
      let s ← Poseidon.addRow p.optimizedArc x.2 x.1
      let s ← Poseidon.fullSubWords p.alpha s
      let s ← Poseidon.mixLayer p.mds s
      return (s, x.2 + 1)) (fun r x => by
        simp only [exec_bind, exec_addRow, exec_fullSubWords, exec_mixLayer, exec_pure, bind_assoc, ok_bind]
        rfl)
  simp only [exec_forRange]
  refine (congrArg (· >>= _) (h1 _)).trans ?_
  rw [bind_assoc]
  congr 1
  funext s1
  simp only [exec_addRow, exec_mixLayer, bind_assoc, ok_bind]
  congr 1
  funext s2
  congr 1
  funext s3
  congr 1
  funext lim
  refine (congrArg (· >>= _) (h2 _ _ _)).trans ?_
  rw [bind_assoc]
  congr 1
  funext x
  obtain ⟨s4, counter⟩ := x
  simp only [exec_partialSubWords, exec_sparseMatMul, bind_assoc, ok_bind]
  congr 1
  funext s5
  congr 1
  funext s6
  refine (congrArg (· >>= _) (h3 _ _ _)).trans ?_
  rw [bind_assoc]
  rfl

theorem exec_unoptimizedPermute (p : Params F t tm1 nmds nhat rows cols nround npart) (s : Vector F t) :
    (unoptimizedPermute p).exec s = Poseidon.unoptimizedPermute p s >>= fun s' => .ok ((), s') := by
  simp only [unoptimizedPermute, Poseidon.unoptimizedPermute, exec_bind, exec_forRange, bind_assoc, exec_pure]
  have hf := fun n (x : Vector F t × Nat) => forRange_rep (fun x : Vector F t × Nat => (x.2, x.1)) 0 n x
    (fun _ x => ((do
      let counter ← addLinear t p.arc x.1
      fullSubWords t p.alpha
      mixLayer p.mds
      return counter : Prog F Nat)).exec x.2)
    (fun _ x => do
      let (s, counter) ← Poseidon.addLinear p.arc x
      let s ← Poseidon.fullSubWords p.alpha s
      let s ← Poseidon.mixLayer p.mds s
      return (s, counter)) (fun r x => by
        simp only [exec_bind, exec_addLinear, exec_fullSubWords, exec_mixLayer, exec_pure, bind_assoc, ok_bind]
        rfl)
  have hp := fun n (x : Vector F t × Nat) => forRange_rep (fun x : Vector F t × Nat => (x.2, x.1)) 0 n x
    (fun _ x => ((do
      let counter ← addLinear t p.arc x.1
      partialSubWords p.alpha
      mixLayer p.mds
      return counter : Prog F Nat)).exec x.2)
    (fun _ x => do
      let (s, counter) ← Poseidon.addLinear p.arc x
      let s ← Poseidon.partialSubWords p.alpha s
      let s ← Poseidon.mixLayer p.mds s
      return (s, counter)) (fun r x => by
        simp only [exec_bind, exec_addLinear, exec_partialSubWords, exec_mixLayer, exec_pure, bind_assoc, ok_bind]
        rfl)
  simp only [exec_bind, exec_pure] at hf hp ⊢
  refine (congrArg (· >>= _) (hf _ (s, 0))).trans ?_
  rw [bind_assoc]
  congr 1
  funext x
  rw [ok_bind]
  refine (congrArg (· >>= _) (hp _ x)).trans ?_
  rw [bind_assoc]
  congr 1
  funext x
  rw [ok_bind]
  refine (congrArg (· >>= _) (hf _ x)).trans ?_
  rw [bind_assoc]
  rfl

end Prog

variable {F : Type} [Field F] [DecidableEq F] {t tm1 nmds nhat rows cols nround npart : Nat}

theorem HashCall.exec_prog (p : Params F t tm1 nmds nhat rows cols nround npart) (c : HashCall F t) (s : Vector F t) :
    (c.prog p).exec s = (c.on ⟨p, s⟩).map fun x => (x.1, x.2.stateWords) := by
  cases c with
  | optimized x =>
    simp only [prog, on, Prog.nTo1FixedHash, Instance.nTo1FixedHash, Prog.exec_bind, Prog.exec_setState, setState_eq, ok_bind,
      Prog.exec_permute, Prog.exec_read, bind_assoc]
    cases permute p x with
    | error e => rfl
    | ok s => simp only [ok_bind]; cases aget s 1 <;> rfl
  | unoptimized x =>
    simp only [prog, on, Prog.unoptimizedNTo1FixedHash, Instance.unoptimizedNTo1FixedHash, Prog.exec_bind, Prog.exec_setState, setState_eq,
      ok_bind, Prog.exec_unoptimizedPermute, Prog.exec_read, bind_assoc]
    cases unoptimizedPermute p x with
    | error e => rfl
    | ok s => simp only [ok_bind]; cases aget s 1 <;> rfl

end Poseidon
