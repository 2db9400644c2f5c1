import Verif.Model.Arith
import Verif.Spec.UserCircuit
import Verif.Proofs.R1csGrow
import Verif.Proofs.R1csCount
import Verif.Proofs.R1csShape
import Verif.Proofs.SymbolicLower
import Verif.Proofs.Preimage

/-! # Sums, differences and products of circuit variables -/

set_option linter.unusedSectionVars false

namespace Poseidon.R1cs

theorem addC_eval {σ : Variable → Fq} (h1 : σ .one = 1) (v : AllocatedFp Fq) (c : Fq) :
    LC.eval σ (v.addConstant c).lc = LC.eval σ v.lc + c := addConstant_eval h1 (.var v) c

theorem add_eval {σ : Variable → Fq} (h1 : σ .one = 1) (a b : FpVar Fq) : (a.add b).eval σ = a.eval σ + b.eval σ := by
  cases a with
  | constant c =>
    cases b with
    | constant d => rfl
    | var w => exact (addC_eval h1 w c).trans (add_comm _ _)
  | var v =>
    cases b with
    | constant d => exact addC_eval h1 v d
    | var w => exact LC.eval_append ..

theorem sub_eval {σ : Variable → Fq} (h1 : σ .one = 1) (a b : FpVar Fq) : (a.sub b).eval σ = a.eval σ - b.eval σ := by
  cases a with
  | constant c =>
    cases b with
    | constant d => rfl
    | var w =>
      refine (LC.eval_neg σ _).trans ?_
      show - LC.eval σ (w.addConstant (-c)).lc = _
      rw [addC_eval h1]
      show -(_ + -c) = c - LC.eval σ w.lc
      ring
  | var v =>
    cases b with
    | constant d => exact (addC_eval h1 v (-d)).trans (sub_eq_add_neg _ _).symm
    | var w =>
      refine (LC.eval_append ..).trans ?_
      rw [LC.eval_neg, ← sub_eq_add_neg]
      rfl

theorem add_isVar (a b : FpVar Fq) : (a.add b).isVar = (a.isVar || b.isVar) := by cases a <;> cases b <;> rfl
theorem sub_isVar (a b : FpVar Fq) : (a.sub b).isVar = (a.isVar || b.isVar) := by cases a <;> cases b <;> rfl

theorem neg_known {cs : CS Fq} {l : LC Fq} (h : LC.Known cs l) : LC.Known cs (l.map fun (k, v) => (-k, v)) := by
  intro x hx
  obtain ⟨z, hz, rfl⟩ := List.mem_map.1 hx
  exact h z hz

theorem app_known {cs : CS Fq} {l m : LC Fq} (h : LC.Known cs l) (h' : LC.Known cs m) : LC.Known cs (l ++ m) := by
  intro x hx
  rcases List.mem_append.1 hx with hx | hx
  · exact h x hx
  · exact h' x hx

theorem add_known {cs : CS Fq} {a b : FpVar Fq} (ha : a.Known cs) (hb : b.Known cs) : (a.add b).Known cs := by
  cases a with
  | constant c =>
    cases b with
    | constant d => trivial
    | var w => exact addConstant_known (a := .var w) hb c
  | var v =>
    cases b with
    | constant d => exact addConstant_known (a := .var v) ha d
    | var w => exact app_known ha hb

theorem sub_known {cs : CS Fq} {a b : FpVar Fq} (ha : a.Known cs) (hb : b.Known cs) : (a.sub b).Known cs := by
  cases a with
  | constant c =>
    cases b with
    | constant d => trivial
    | var w => exact neg_known (addConstant_known (a := .var w) hb (-c))
  | var v =>
    cases b with
    | constant d => exact addConstant_known (a := .var v) ha (-d)
    | var w => exact app_known ha (neg_known hb)

theorem add_carries {cs : CS Fq} {a b : FpVar Fq} {x y : Fq} (ha : Carries cs a x) (hb : Carries cs b y) :
    Carries cs (a.add b) (x + y) := by
  cases a with
  | constant c =>
    obtain rfl : c = x := ha
    cases b with
    | constant d =>
      obtain rfl : d = y := hb
      exact rfl
    | var w =>
      rw [add_comm]
      exact addConstant_carries (a := .var w) hb c
  | var v =>
    cases b with
    | constant d =>
      obtain rfl : d = y := hb
      exact addConstant_carries (a := .var v) ha d
    | var w =>
      refine ⟨?_, fun σ hσ => ?_⟩
      · show (do let x ← v.value; let y ← w.value; return x + y : Option Fq) = _
        rw [ha.1, hb.1]
        rfl
      · rw [← ha.2 σ hσ, ← hb.2 σ hσ]
        exact LC.eval_append ..

theorem sub_carries {cs : CS Fq} {a b : FpVar Fq} {x y : Fq} (ha : Carries cs a x) (hb : Carries cs b y) :
    Carries cs (a.sub b) (x - y) := by
  cases a with
  | constant c =>
    obtain rfl : c = x := ha
    cases b with
    | constant d =>
      obtain rfl : d = y := hb
      exact rfl
    | var w =>
      have h := addConstant_carries (a := .var w) hb (-c)
      refine ⟨?_, fun σ hσ => ?_⟩
      · show Option.map (- ·) (w.addConstant (-c)).value = _
        rw [h.1, Option.map_some]
        exact congrArg some (by ring)
      · have := h.2 σ hσ
        refine (LC.eval_neg σ _).trans ?_
        show - LC.eval σ (w.addConstant (-c)).lc = _
        rw [this]
        ring
  | var v =>
    cases b with
    | constant d =>
      obtain rfl : d = y := hb
      rw [sub_eq_add_neg]
      exact addConstant_carries (a := .var v) ha (-d)
    | var w =>
      refine ⟨?_, fun σ hσ => ?_⟩
      · show (do let x ← v.value; let y ← w.value; return x - y : Option Fq) = _
        rw [ha.1, hb.1]
        rfl
      · rw [← ha.2 σ hσ, ← hb.2 σ hσ]
        refine (LC.eval_append ..).trans ?_
        rw [LC.eval_neg, ← sub_eq_add_neg]

theorem add_shape (a b : FpVar Fq) : a.shape.add b.shape = (a.add b).shape := by
  cases a with
  | constant c =>
    cases b with
    | constant d => rfl
    | var w => exact addConstant_shape (.var w) c
  | var v =>
    cases b with
    | constant d => exact addConstant_shape (.var v) d
    | var w => rfl

theorem sub_shape (a b : FpVar Fq) : a.shape.sub b.shape = (a.sub b).shape := by
  cases a with
  | constant c =>
    cases b with
    | constant d => rfl
    | var w =>
      have h := addConstant_shape (.var w) (-c)
      have h : (w.shape.addConstant (-c)).lc = (w.addConstant (-c)).lc := congrArg (fun x => match x with | .var v => v.lc | _ => []) h
      show FpVar.var ⟨Option.map (- ·) (w.shape.addConstant (-c)).value, _⟩ = FpVar.var ⟨none, _⟩
      have h0 : (w.shape.addConstant (-c)).value = none := by
        unfold AllocatedFp.addConstant
        split <;> rfl
      rw [h0]
      show FpVar.var ⟨none, (w.shape.addConstant (-c)).lc.map _⟩ = _
      rw [h]
      rfl
  | var v =>
    cases b with
    | constant d => exact addConstant_shape (.var v) (-d)
    | var w => rfl

theorem mul_isVar (a b : FpVar Fq) (cs : CS Fq) : Ens (fun r => r.1.isVar = (a.isVar || b.isVar)) (a.mul b cs) := by
  cases a with
  | constant c => cases b <;> exact Ens.ok rfl
  | var v =>
    cases b with
    | constant d => exact Ens.ok rfl
    | var w => exact Ens.bind (amul_count v w cs) fun r _ => Ens.ok rfl

theorem mul_count (a b : FpVar Fq) (cs : CS Fq) : Ens (fun r => Adds (ArithOp.mul.cost a.isVar b.isVar) cs r.2) (a.mul b cs) := by
  cases a with
  | constant c => cases b <;> exact Ens.ok (Adds.refl cs)
  | var v =>
    cases b with
    | constant d => exact Ens.ok (Adds.refl cs)
    | var w => exact Ens.bind (amul_count v w cs) fun r hr => Ens.ok hr

/-! ### The three operators together -/

theorem arith_isVar {op : ArithOp} {a b d : FpVar Fq} {cs cs' : CS Fq} (h : op.run a b cs = .ok (d, cs')) :
    d.isVar = (a.isVar || b.isVar) := by
  cases op with
  | add => cases h; exact add_isVar a b
  | sub => cases h; exact sub_isVar a b
  | mul => exact mul_isVar a b cs _ h

theorem arith_count {op : ArithOp} {a b d : FpVar Fq} {cs cs' : CS Fq} (h : op.run a b cs = .ok (d, cs')) :
    Adds (op.cost a.isVar b.isVar) cs cs' := by
  cases op with
  | add => cases h; exact Adds.refl cs
  | sub => cases h; exact Adds.refl cs
  | mul => exact mul_count a b cs _ h

theorem arith_sound {op : ArithOp} {a b d : FpVar Fq} {cs cs' : CS Fq} (h : op.run a b cs = .ok (d, cs')) {σ : Variable → Fq}
    (hσ : Satisfies σ cs') : d.eval σ = op.native (a.eval σ) (b.eval σ) := by
  cases op with
  | add => cases h; exact add_eval hσ.1 a b
  | sub => cases h; exact sub_eval hσ.1 a b
  | mul => exact (mul_sound σ a b cs _ h hσ).2

theorem arith_grows {op : ArithOp} {a b d : FpVar Fq} {cs cs' : CS Fq} (ha : a.Known cs) (hb : b.Known cs)
    (h : op.run a b cs = .ok (d, cs')) : Grows cs cs' ∧ d.Known cs' := by
  cases op with
  | add => cases h; exact ⟨.refl, add_known ha hb⟩
  | sub => cases h; exact ⟨.refl, sub_known ha hb⟩
  | mul => exact mul_grows ha hb _ h

theorem arith_complete (op : ArithOp) {cs : CS Fq} {a b : FpVar Fq} {x y : Fq}
    (h : cs.setup = false → Proving cs ∧ Carries cs a x ∧ Carries cs b y) :
    ∃ r, op.run a b cs = .ok r ∧ Gives cs (a.isVar || b.isVar) (op.native x y) r := by
  cases op with
  | add => exact ⟨_, rfl, rfl, add_isVar a b, fun hs => ⟨.refl (h hs).1, add_carries (h hs).2.1 (h hs).2.2⟩⟩
  | sub => exact ⟨_, rfl, rfl, sub_isVar a b, fun hs => ⟨.refl (h hs).1, sub_carries (h hs).2.1 (h hs).2.2⟩⟩
  | mul => exact mul_complete h

theorem arith_shape {op : ArithOp} {a b d : FpVar Fq} {cs cs' : CS Fq} (h : op.run a b cs = .ok (d, cs')) :
    op.run a.shape b.shape cs.shape = .ok (d.shape, cs'.shape) := by
  cases op with
  | add => cases h; exact congrArg (fun x => Except.ok (x, cs.shape)) (add_shape a b)
  | sub => cases h; exact congrArg (fun x => Except.ok (x, cs.shape)) (sub_shape a b)
  | mul =>
    obtain ⟨r, h1, rfl⟩ := mul_shape a b cs _ h
    exact h1

end Poseidon.R1cs

namespace Poseidon.Sym

theorem newLc_post {cs : CS Fq} (hs : cs.Sound) {l : LC Fq} (hl : ∀ x ∈ l, x.2.Known cs) (value : Option Fq) (lc : R1cs.LC Fq)
    (he : LC.lowWith (lowAll cs.lcMap) l = lc) : APost cs (⟨value, (newLc l cs).1⟩, (newLc l cs).2) (⟨value, lc⟩, cs.lower) := by
  obtain ⟨h1, h2, h3, h4, h5⟩ := newLc_spec hs hl
  refine ⟨h1, h2, h3, Prod.ext ?_ h5.symm⟩
  show R1cs.AllocatedFp.mk _ _ = R1cs.AllocatedFp.mk _ _
  rw [h4, he]

theorem add_low {a b : FpVar Fq} {cs : CS Fq} (hs : cs.Sound) (ha : a.Known cs) (hb : b.Known cs) :
    Post cs (a.add b cs) ((a.low cs).add (b.low cs), cs.lower) := by
  cases a with
  | constant c =>
    cases b with
    | constant d => exact ⟨Ext.refl _, hs, trivial, rfl⟩
    | var w => exact (addConstant_low_alloc (a := w) c hs hb).post
  | var v =>
    cases b with
    | constant d => exact (addConstant_low_alloc (a := v) d hs ha).post
    | var w =>
      have hv : v.var.Known cs := ha
      have hw : w.var.Known cs := hb
      exact (newLc_post hs (l := [(1, v.var), (1, w.var)]) (by simpa using ⟨hv, hw⟩) _ _ (by
        simp [LC.lowWith, AllocatedFp.low, Var.low])).post

theorem negate_low {a : AllocatedFp Fq} {cs : CS Fq} (hs : cs.Sound) (ha : a.var.Known cs) :
    APost cs (a.negate cs) (R1cs.AllocatedFp.negate (a.low cs), cs.lower) :=
  newLc_post hs (l := [(-1, a.var)]) (by simpa using ha) _ _ (by simp [LC.lowWith, AllocatedFp.low, Var.low])

theorem sub_low {a b : FpVar Fq} {cs : CS Fq} (hs : cs.Sound) (ha : a.Known cs) (hb : b.Known cs) :
    Post cs (a.sub b cs) ((a.low cs).sub (b.low cs), cs.lower) := by
  cases a with
  | constant c =>
    cases b with
    | constant d => exact ⟨Ext.refl _, hs, trivial, rfl⟩
    | var w =>
      have h := addConstant_low_alloc (a := w) (-c) hs hb
      obtain ⟨h1, h2, h3, h4⟩ := h
      rw [Prod.mk.injEq] at h4
      obtain ⟨k1, k2, k3, k4⟩ := negate_low h2 h3
      rw [Prod.mk.injEq] at k4
      refine ⟨h1.trans k1, k2, k3, Prod.ext ?_ (h4.2.trans k4.2)⟩
      show R1cs.FpVar.var (R1cs.AllocatedFp.negate (R1cs.AllocatedFp.addConstant (w.low cs) (-c))) = _
      rw [h4.1, k4.1]
      rfl
  | var v =>
    cases b with
    | constant d => exact (addConstant_low_alloc (a := v) (-d) hs ha).post
    | var w =>
      have hv : v.var.Known cs := ha
      have hw : w.var.Known cs := hb
      exact (newLc_post hs (l := [(1, v.var), (-1, w.var)]) (by simpa using ⟨hv, hw⟩) _ _ (by
        simp [LC.lowWith, AllocatedFp.low, Var.low])).post

theorem arith_low (op : R1cs.ArithOp) {a b : FpVar Fq} {cs : CS Fq} (hs : cs.Sound) (ha : a.Known cs) (hb : b.Known cs) :
    Both (Post cs) (arith op a b cs) (op.run (a.low cs) (b.low cs) cs.lower) := by
  cases op with
  | add => exact add_low hs ha hb
  | sub => exact sub_low hs ha hb
  | mul => exact mul_low hs ha hb

end Poseidon.Sym
