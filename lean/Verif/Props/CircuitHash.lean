import Verif.Props.Circuit
import Verif.Props.Native

/-!
# Properties of the circuit `hash_1` .. `hash_7` (C10, C12, C13, C47 for the shipped rates)
-/

namespace Poseidon

open R1cs

theorem native_word (i : Fin 7) (x : Vector Fq (i.val + 2)) :
    (Instance.new (shippedParams i)).unoptimizedNTo1FixedHash x =
      .ok (perm377 i (fun j => x[j]) 1, ⟨shippedParams i, Vector.ofFn (perm377 i fun j => x[j])⟩) := by
  obtain ⟨y, h1, h2⟩ := C02_unoptimized i (Vector.replicate _ 0) (fun j => x[j])
  rw [spec377_eq] at h1
  injection h1 with h1
  subst h1
  have hx : Vector.ofFn (fun j : Fin (i.val + 2) => x[j]) = x := by ext; simp
  rw [hx] at h2
  exact h2

/-- C13 for every rate: the circuit output is the optimized native hash of the assigned inputs. -/
theorem C13_circuit_native (i : Fin 7) (inputs : Vector (FpVar Fq) (i.val + 2)) (cs cs' : CS Fq) (out : FpVar Fq)
    (h : R1cs.nTo1FixedHash (shippedParams i) inputs cs = .ok (out, cs')) (σ : R1cs.Variable → Fq)
    (hσ : Satisfies σ cs') :
    ∃ inst', (Instance.new (shippedParams i)).nTo1FixedHash (inputs.map (FpVar.eval σ)) = .ok (out.eval σ, inst') := by
  obtain ⟨inst', h1⟩ := C09_soundness (shippedParams i) (shipped_alpha i) (by norm_num) (by omega) rfl inputs cs cs'
    out h σ hσ
  rw [native_word] at h1
  have h2 := nTo1_perm377 i (Vector.replicate _ 0) (fun j => (inputs.map (FpVar.eval σ))[j])
  have hx : Vector.ofFn (fun j : Fin (i.val + 2) => (inputs.map (FpVar.eval σ))[j]) = inputs.map (FpVar.eval σ) := by
    ext; simp
  rw [hx] at h2
  have h3 := congrArg Prod.fst (Except.ok.inj h1)
  dsimp only at h3
  rw [← h3]
  exact ⟨_, h2⟩

/-- C10 for every rate: the honest prover always succeeds. -/
theorem C10_shipped (i : Fin 7) (inputs : Vector (FpVar Fq) (i.val + 2)) (x : Vector Fq (i.val + 2)) (cs : CS Fq)
    (hcs : Proving cs) (hvar : ∃ j : Fin (i.val + 2), inputs[j].isVar = true)
    (hx : ∀ j : Fin (i.val + 2), Carries cs inputs[j] x[j]) :
    ∃ out cs' d inst', R1cs.nTo1FixedHash (shippedParams i) inputs cs = .ok (out, cs') ∧
      (Instance.new (shippedParams i)).nTo1FixedHash x = .ok (d, inst') ∧ Proving cs' ∧ Carries cs' out d ∧
      ∀ σ, Stored cs' σ → Stored cs σ ∧ (Satisfies σ cs → Satisfies σ cs') := by
  obtain ⟨out, cs', h1, h2, h3, h4⟩ := C10_completeness (shippedParams i) (shipped_alpha i) (by norm_num) (by norm_num)
    (by omega) rfl inputs x cs hcs hvar hx _ _ (native_word i x)
  have h := nTo1_perm377 i (Vector.replicate _ 0) (fun j => x[j])
  have hx : Vector.ofFn (fun j : Fin (i.val + 2) => x[j]) = x := by ext; simp
  rw [hx] at h
  exact ⟨out, cs', _, _, h1, h, h2, h3, h4⟩

/-- C11 for every rate: setup always succeeds. -/
theorem C11_shipped_setup (i : Fin 7) (inputs : Vector (FpVar Fq) (i.val + 2)) (cs : CS Fq) (hcs : cs.setup = true)
    (hvar : ∃ j : Fin (i.val + 2), inputs[j].isVar = true) :
    ∃ out cs', R1cs.nTo1FixedHash (shippedParams i) inputs cs = .ok (out, cs') :=
  C11_setup_total (shippedParams i) (shipped_alpha i) (by norm_num) (by norm_num) (by omega) rfl inputs cs hcs hvar
    (Vector.replicate _ 0) _ _ (native_word i _)

/-- C12 for every rate: five constraints and witnesses for each variable input and each of the
`7 * t + 31` later S-boxes. -/
theorem C12_shipped (i : Fin 7) (inputs : Vector (FpVar Fq) (i.val + 2)) (cs cs' : CS Fq) (out : FpVar Fq)
    (h : R1cs.nTo1FixedHash (shippedParams i) inputs cs = .ok (out, cs')) :
    cs'.constraints.length = cs.constraints.length + 5 * (inputs.toList.countP FpVar.isVar + 7 * (i.val + 2) + 31) ∧
    cs'.numWitness = cs.numWitness + 5 * (inputs.toList.countP FpVar.isVar + 7 * (i.val + 2) + 31) ∧
    cs'.numInstance = cs.numInstance := by
  have := C12_size (shippedParams i) (shipped_alpha i) (by norm_num) (by norm_num) (by omega) rfl
    (by simp [shipped_rounds]) inputs cs cs' out h
  simp only [shipped_rounds, sboxCost_17] at this
  exact this

/-- C47 for every rate. -/
theorem C47_shipped (i : Fin 7) (x : Vector Fq (i.val + 2)) (cs : CS Fq) :
    ∃ e, R1cs.nTo1FixedHash (shippedParams i) (x.map FpVar.constant) cs = .error e :=
  C47_constants_panic (shippedParams i) (shipped_alpha i) (by norm_num) (by norm_num) (by omega) rfl
    (by simp [shipped_rounds]) x cs

/-! ### `hash_1` -/

/-- C13: circuit `hash_1` agrees with native `hash_1` under every satisfying assignment. -/
theorem C13_hash_1 (ds : FpVar Fq) (v : FpVar Fq) (cs cs' : CS Fq) (out : FpVar Fq)
    (h : R1cs.hash1 ds v cs = .ok (out, cs')) (σ : R1cs.Variable → Fq) (hσ : Satisfies σ cs') :
    Poseidon.hash1 (ds.eval σ) (v.eval σ) = .ok (out.eval σ) := by
  obtain ⟨inst', h1⟩ := C13_circuit_native 0 #v[ds, v] cs cs' out h σ hσ
  have h2 : Instance.nTo1FixedHash (Instance.new rate1Params) (Vector.map (FpVar.eval σ) #v[ds, v]) =
      .ok (out.eval σ, inst') := h1
  have hmap : Vector.map (FpVar.eval σ) #v[ds, v] =
      #v[ds.eval σ, v.eval σ] := by simp
  rw [hmap] at h2
  rw [Poseidon.hash1, h2]
  rfl

/-- C10: if the inputs carry the values `dx`, `x`, circuit `hash_1` succeeds, its result carries the native
hash, and the stored assignment satisfies the new constraints. -/
theorem C10_hash_1 (ds : FpVar Fq) (v : FpVar Fq) (dx : Fq) (x : Fq) (cs : CS Fq) (hcs : Proving cs)
    (hvar : (ds.isVar || v.isVar) = true) (h0 : Carries cs ds dx) (h1 : Carries cs v x) :
    ∃ out cs' d, R1cs.hash1 ds v cs = .ok (out, cs') ∧ Poseidon.hash1 dx x = .ok d ∧ Proving cs' ∧
      Carries cs' out d ∧ ∀ σ, Stored cs' σ → Stored cs σ ∧ (Satisfies σ cs → Satisfies σ cs') := by
  obtain ⟨out, cs', d, inst', g1, g2, g3, g4, g5⟩ := C10_shipped 0 #v[ds, v] #v[dx, x] cs hcs
    (by
      simp only [Bool.or_eq_true] at hvar
      by_contra hn
      push Not at hn
      have hn' : ∀ j : Fin 2, (#v[ds, v] : Vector (FpVar Fq) 2)[j].isVar ≠ true := hn
      simp only [Fin.forall_fin_succ, IsEmpty.forall_iff] at hn'
      simp at hn'
      simp [hn'] at hvar)
    (fun j => by
      have : ∀ j : Fin 2, Carries cs (#v[ds, v] : Vector (FpVar Fq) 2)[j] (#v[dx, x] : Vector Fq 2)[j] := by
        simp only [Fin.forall_fin_succ, IsEmpty.forall_iff]
        exact ⟨h0, h1, trivial⟩
      exact this j)
  refine ⟨out, cs', d, g1, ?_, g3, g4, g5⟩
  have h2 : Instance.nTo1FixedHash (Instance.new rate1Params) #v[dx, x] = .ok (d, inst') := g2
  rw [Poseidon.hash1, h2]
  rfl

/-- C12: size of circuit `hash_1`; with 2 variable inputs it is 235. -/
theorem C12_hash_1 (ds : FpVar Fq) (v : FpVar Fq) (cs cs' : CS Fq) (out : FpVar Fq)
    (h : R1cs.hash1 ds v cs = .ok (out, cs')) :
    cs'.constraints.length = cs.constraints.length + 5 * (List.countP FpVar.isVar [ds, v] + 7 * 2 + 31) ∧
    cs'.numWitness = cs.numWitness + 5 * (List.countP FpVar.isVar [ds, v] + 7 * 2 + 31) ∧
    cs'.numInstance = cs.numInstance :=
  C12_shipped 0 #v[ds, v] cs cs' out h

/-- C47: circuit `hash_1` on constants panics. -/
theorem C47_hash_1 (dx : Fq) (x : Fq) (cs : CS Fq) :
    ∃ e, R1cs.hash1 (.constant dx) (.constant x) cs = .error e := by
  obtain ⟨e, h⟩ := C47_shipped 0 #v[dx, x] cs
  have h' : R1cs.nTo1FixedHash rate1Params (Vector.map FpVar.constant #v[dx, x]) cs = .error e := h
  have hmap : Vector.map FpVar.constant #v[dx, x] =
      #v[.constant dx, .constant x] := by simp
  rw [hmap] at h'
  exact ⟨e, h'⟩

/-! ### `hash_2` -/

/-- C13: circuit `hash_2` agrees with native `hash_2` under every satisfying assignment. -/
theorem C13_hash_2 (ds : FpVar Fq) (v : FpVar Fq × FpVar Fq) (cs cs' : CS Fq) (out : FpVar Fq)
    (h : R1cs.hash2 ds v cs = .ok (out, cs')) (σ : R1cs.Variable → Fq) (hσ : Satisfies σ cs') :
    Poseidon.hash2 (ds.eval σ) (v.1.eval σ, v.2.eval σ) = .ok (out.eval σ) := by
  obtain ⟨inst', h1⟩ := C13_circuit_native 1 #v[ds, v.1, v.2] cs cs' out h σ hσ
  have h2 : Instance.nTo1FixedHash (Instance.new rate2Params) (Vector.map (FpVar.eval σ) #v[ds, v.1, v.2]) =
      .ok (out.eval σ, inst') := h1
  have hmap : Vector.map (FpVar.eval σ) #v[ds, v.1, v.2] =
      #v[ds.eval σ, v.1.eval σ, v.2.eval σ] := by simp
  rw [hmap] at h2
  rw [Poseidon.hash2, h2]
  rfl

/-- C10: if the inputs carry the values `dx`, `x`, circuit `hash_2` succeeds, its result carries the native
hash, and the stored assignment satisfies the new constraints. -/
theorem C10_hash_2 (ds : FpVar Fq) (v : FpVar Fq × FpVar Fq) (dx : Fq) (x : Fq × Fq) (cs : CS Fq) (hcs : Proving cs)
    (hvar : (ds.isVar || v.1.isVar || v.2.isVar) = true) (h0 : Carries cs ds dx) (h1 : Carries cs v.1 x.1) (h2 : Carries cs v.2 x.2) :
    ∃ out cs' d, R1cs.hash2 ds v cs = .ok (out, cs') ∧ Poseidon.hash2 dx x = .ok d ∧ Proving cs' ∧
      Carries cs' out d ∧ ∀ σ, Stored cs' σ → Stored cs σ ∧ (Satisfies σ cs → Satisfies σ cs') := by
  obtain ⟨out, cs', d, inst', g1, g2, g3, g4, g5⟩ := C10_shipped 1 #v[ds, v.1, v.2] #v[dx, x.1, x.2] cs hcs
    (by
      simp only [Bool.or_eq_true] at hvar
      by_contra hn
      push Not at hn
      have hn' : ∀ j : Fin 3, (#v[ds, v.1, v.2] : Vector (FpVar Fq) 3)[j].isVar ≠ true := hn
      simp only [Fin.forall_fin_succ, IsEmpty.forall_iff] at hn'
      simp at hn'
      simp [hn'] at hvar)
    (fun j => by
      have : ∀ j : Fin 3, Carries cs (#v[ds, v.1, v.2] : Vector (FpVar Fq) 3)[j] (#v[dx, x.1, x.2] : Vector Fq 3)[j] := by
        simp only [Fin.forall_fin_succ, IsEmpty.forall_iff]
        exact ⟨h0, h1, h2, trivial⟩
      exact this j)
  refine ⟨out, cs', d, g1, ?_, g3, g4, g5⟩
  have h2 : Instance.nTo1FixedHash (Instance.new rate2Params) #v[dx, x.1, x.2] = .ok (d, inst') := g2
  rw [Poseidon.hash2, h2]
  rfl

/-- C12: size of circuit `hash_2`; with 3 variable inputs it is 275. -/
theorem C12_hash_2 (ds : FpVar Fq) (v : FpVar Fq × FpVar Fq) (cs cs' : CS Fq) (out : FpVar Fq)
    (h : R1cs.hash2 ds v cs = .ok (out, cs')) :
    cs'.constraints.length = cs.constraints.length + 5 * (List.countP FpVar.isVar [ds, v.1, v.2] + 7 * 3 + 31) ∧
    cs'.numWitness = cs.numWitness + 5 * (List.countP FpVar.isVar [ds, v.1, v.2] + 7 * 3 + 31) ∧
    cs'.numInstance = cs.numInstance :=
  C12_shipped 1 #v[ds, v.1, v.2] cs cs' out h

/-- C47: circuit `hash_2` on constants panics. -/
theorem C47_hash_2 (dx : Fq) (x : Fq × Fq) (cs : CS Fq) :
    ∃ e, R1cs.hash2 (.constant dx) (.constant x.1, .constant x.2) cs = .error e := by
  obtain ⟨e, h⟩ := C47_shipped 1 #v[dx, x.1, x.2] cs
  have h' : R1cs.nTo1FixedHash rate2Params (Vector.map FpVar.constant #v[dx, x.1, x.2]) cs = .error e := h
  have hmap : Vector.map FpVar.constant #v[dx, x.1, x.2] =
      #v[.constant dx, .constant x.1, .constant x.2] := by simp
  rw [hmap] at h'
  exact ⟨e, h'⟩

/-! ### `hash_3` -/

/-- C13: circuit `hash_3` agrees with native `hash_3` under every satisfying assignment. -/
theorem C13_hash_3 (ds : FpVar Fq) (v : FpVar Fq × FpVar Fq × FpVar Fq) (cs cs' : CS Fq) (out : FpVar Fq)
    (h : R1cs.hash3 ds v cs = .ok (out, cs')) (σ : R1cs.Variable → Fq) (hσ : Satisfies σ cs') :
    Poseidon.hash3 (ds.eval σ) (v.1.eval σ, v.2.1.eval σ, v.2.2.eval σ) = .ok (out.eval σ) := by
  obtain ⟨inst', h1⟩ := C13_circuit_native 2 #v[ds, v.1, v.2.1, v.2.2] cs cs' out h σ hσ
  have h2 : Instance.nTo1FixedHash (Instance.new rate3Params) (Vector.map (FpVar.eval σ) #v[ds, v.1, v.2.1, v.2.2]) =
      .ok (out.eval σ, inst') := h1
  have hmap : Vector.map (FpVar.eval σ) #v[ds, v.1, v.2.1, v.2.2] =
      #v[ds.eval σ, v.1.eval σ, v.2.1.eval σ, v.2.2.eval σ] := by simp
  rw [hmap] at h2
  rw [Poseidon.hash3, h2]
  rfl

/-- C10: if the inputs carry the values `dx`, `x`, circuit `hash_3` succeeds, its result carries the native
hash, and the stored assignment satisfies the new constraints. -/
theorem C10_hash_3 (ds : FpVar Fq) (v : FpVar Fq × FpVar Fq × FpVar Fq) (dx : Fq) (x : Fq × Fq × Fq) (cs : CS Fq) (hcs : Proving cs)
    (hvar : (ds.isVar || v.1.isVar || v.2.1.isVar || v.2.2.isVar) = true) (h0 : Carries cs ds dx) (h1 : Carries cs v.1 x.1) (h2 : Carries cs v.2.1 x.2.1) (h3 : Carries cs v.2.2 x.2.2) :
    ∃ out cs' d, R1cs.hash3 ds v cs = .ok (out, cs') ∧ Poseidon.hash3 dx x = .ok d ∧ Proving cs' ∧
      Carries cs' out d ∧ ∀ σ, Stored cs' σ → Stored cs σ ∧ (Satisfies σ cs → Satisfies σ cs') := by
  obtain ⟨out, cs', d, inst', g1, g2, g3, g4, g5⟩ := C10_shipped 2 #v[ds, v.1, v.2.1, v.2.2] #v[dx, x.1, x.2.1, x.2.2] cs hcs
    (by
      simp only [Bool.or_eq_true] at hvar
      by_contra hn
      push Not at hn
      have hn' : ∀ j : Fin 4, (#v[ds, v.1, v.2.1, v.2.2] : Vector (FpVar Fq) 4)[j].isVar ≠ true := hn
      simp only [Fin.forall_fin_succ, IsEmpty.forall_iff] at hn'
      simp at hn'
      simp [hn'] at hvar)
    (fun j => by
      have : ∀ j : Fin 4, Carries cs (#v[ds, v.1, v.2.1, v.2.2] : Vector (FpVar Fq) 4)[j] (#v[dx, x.1, x.2.1, x.2.2] : Vector Fq 4)[j] := by
        simp only [Fin.forall_fin_succ, IsEmpty.forall_iff]
        exact ⟨h0, h1, h2, h3, trivial⟩
      exact this j)
  refine ⟨out, cs', d, g1, ?_, g3, g4, g5⟩
  have h2 : Instance.nTo1FixedHash (Instance.new rate3Params) #v[dx, x.1, x.2.1, x.2.2] = .ok (d, inst') := g2
  rw [Poseidon.hash3, h2]
  rfl

/-- C12: size of circuit `hash_3`; with 4 variable inputs it is 315. -/
theorem C12_hash_3 (ds : FpVar Fq) (v : FpVar Fq × FpVar Fq × FpVar Fq) (cs cs' : CS Fq) (out : FpVar Fq)
    (h : R1cs.hash3 ds v cs = .ok (out, cs')) :
    cs'.constraints.length = cs.constraints.length + 5 * (List.countP FpVar.isVar [ds, v.1, v.2.1, v.2.2] + 7 * 4 + 31) ∧
    cs'.numWitness = cs.numWitness + 5 * (List.countP FpVar.isVar [ds, v.1, v.2.1, v.2.2] + 7 * 4 + 31) ∧
    cs'.numInstance = cs.numInstance :=
  C12_shipped 2 #v[ds, v.1, v.2.1, v.2.2] cs cs' out h

/-- C47: circuit `hash_3` on constants panics. -/
theorem C47_hash_3 (dx : Fq) (x : Fq × Fq × Fq) (cs : CS Fq) :
    ∃ e, R1cs.hash3 (.constant dx) (.constant x.1, .constant x.2.1, .constant x.2.2) cs = .error e := by
  obtain ⟨e, h⟩ := C47_shipped 2 #v[dx, x.1, x.2.1, x.2.2] cs
  have h' : R1cs.nTo1FixedHash rate3Params (Vector.map FpVar.constant #v[dx, x.1, x.2.1, x.2.2]) cs = .error e := h
  have hmap : Vector.map FpVar.constant #v[dx, x.1, x.2.1, x.2.2] =
      #v[.constant dx, .constant x.1, .constant x.2.1, .constant x.2.2] := by simp
  rw [hmap] at h'
  exact ⟨e, h'⟩

/-! ### `hash_4` -/

/-- C13: circuit `hash_4` agrees with native `hash_4` under every satisfying assignment. -/
theorem C13_hash_4 (ds : FpVar Fq) (v : FpVar Fq × FpVar Fq × FpVar Fq × FpVar Fq) (cs cs' : CS Fq) (out : FpVar Fq)
    (h : R1cs.hash4 ds v cs = .ok (out, cs')) (σ : R1cs.Variable → Fq) (hσ : Satisfies σ cs') :
    Poseidon.hash4 (ds.eval σ) (v.1.eval σ, v.2.1.eval σ, v.2.2.1.eval σ, v.2.2.2.eval σ) = .ok (out.eval σ) := by
  obtain ⟨inst', h1⟩ := C13_circuit_native 3 #v[ds, v.1, v.2.1, v.2.2.1, v.2.2.2] cs cs' out h σ hσ
  have h2 : Instance.nTo1FixedHash (Instance.new rate4Params) (Vector.map (FpVar.eval σ) #v[ds, v.1, v.2.1, v.2.2.1, v.2.2.2]) =
      .ok (out.eval σ, inst') := h1
  have hmap : Vector.map (FpVar.eval σ) #v[ds, v.1, v.2.1, v.2.2.1, v.2.2.2] =
      #v[ds.eval σ, v.1.eval σ, v.2.1.eval σ, v.2.2.1.eval σ, v.2.2.2.eval σ] := by simp
  rw [hmap] at h2
  rw [Poseidon.hash4, h2]
  rfl

/-- C10: if the inputs carry the values `dx`, `x`, circuit `hash_4` succeeds, its result carries the native
hash, and the stored assignment satisfies the new constraints. -/
theorem C10_hash_4 (ds : FpVar Fq) (v : FpVar Fq × FpVar Fq × FpVar Fq × FpVar Fq) (dx : Fq) (x : Fq × Fq × Fq × Fq) (cs : CS Fq) (hcs : Proving cs)
    (hvar : (ds.isVar || v.1.isVar || v.2.1.isVar || v.2.2.1.isVar || v.2.2.2.isVar) = true) (h0 : Carries cs ds dx) (h1 : Carries cs v.1 x.1) (h2 : Carries cs v.2.1 x.2.1) (h3 : Carries cs v.2.2.1 x.2.2.1) (h4 : Carries cs v.2.2.2 x.2.2.2) :
    ∃ out cs' d, R1cs.hash4 ds v cs = .ok (out, cs') ∧ Poseidon.hash4 dx x = .ok d ∧ Proving cs' ∧
      Carries cs' out d ∧ ∀ σ, Stored cs' σ → Stored cs σ ∧ (Satisfies σ cs → Satisfies σ cs') := by
  obtain ⟨out, cs', d, inst', g1, g2, g3, g4, g5⟩ := C10_shipped 3 #v[ds, v.1, v.2.1, v.2.2.1, v.2.2.2] #v[dx, x.1, x.2.1, x.2.2.1, x.2.2.2] cs hcs
    (by
      simp only [Bool.or_eq_true] at hvar
      by_contra hn
      push Not at hn
      have hn' : ∀ j : Fin 5, (#v[ds, v.1, v.2.1, v.2.2.1, v.2.2.2] : Vector (FpVar Fq) 5)[j].isVar ≠ true := hn
      simp only [Fin.forall_fin_succ, IsEmpty.forall_iff] at hn'
      simp at hn'
      simp [hn'] at hvar)
    (fun j => by
      have : ∀ j : Fin 5, Carries cs (#v[ds, v.1, v.2.1, v.2.2.1, v.2.2.2] : Vector (FpVar Fq) 5)[j] (#v[dx, x.1, x.2.1, x.2.2.1, x.2.2.2] : Vector Fq 5)[j] := by
        simp only [Fin.forall_fin_succ, IsEmpty.forall_iff]
        exact ⟨h0, h1, h2, h3, h4, trivial⟩
      exact this j)
  refine ⟨out, cs', d, g1, ?_, g3, g4, g5⟩
  have h2 : Instance.nTo1FixedHash (Instance.new rate4Params) #v[dx, x.1, x.2.1, x.2.2.1, x.2.2.2] = .ok (d, inst') := g2
  rw [Poseidon.hash4, h2]
  rfl

/-- C12: size of circuit `hash_4`; with 5 variable inputs it is 355. -/
theorem C12_hash_4 (ds : FpVar Fq) (v : FpVar Fq × FpVar Fq × FpVar Fq × FpVar Fq) (cs cs' : CS Fq) (out : FpVar Fq)
    (h : R1cs.hash4 ds v cs = .ok (out, cs')) :
    cs'.constraints.length = cs.constraints.length + 5 * (List.countP FpVar.isVar [ds, v.1, v.2.1, v.2.2.1, v.2.2.2] + 7 * 5 + 31) ∧
    cs'.numWitness = cs.numWitness + 5 * (List.countP FpVar.isVar [ds, v.1, v.2.1, v.2.2.1, v.2.2.2] + 7 * 5 + 31) ∧
    cs'.numInstance = cs.numInstance :=
  C12_shipped 3 #v[ds, v.1, v.2.1, v.2.2.1, v.2.2.2] cs cs' out h

/-- C47: circuit `hash_4` on constants panics. -/
theorem C47_hash_4 (dx : Fq) (x : Fq × Fq × Fq × Fq) (cs : CS Fq) :
    ∃ e, R1cs.hash4 (.constant dx) (.constant x.1, .constant x.2.1, .constant x.2.2.1, .constant x.2.2.2) cs = .error e := by
  obtain ⟨e, h⟩ := C47_shipped 3 #v[dx, x.1, x.2.1, x.2.2.1, x.2.2.2] cs
  have h' : R1cs.nTo1FixedHash rate4Params (Vector.map FpVar.constant #v[dx, x.1, x.2.1, x.2.2.1, x.2.2.2]) cs = .error e := h
  have hmap : Vector.map FpVar.constant #v[dx, x.1, x.2.1, x.2.2.1, x.2.2.2] =
      #v[.constant dx, .constant x.1, .constant x.2.1, .constant x.2.2.1, .constant x.2.2.2] := by simp
  rw [hmap] at h'
  exact ⟨e, h'⟩

/-! ### `hash_5` -/

/-- C13: circuit `hash_5` agrees with native `hash_5` under every satisfying assignment. -/
theorem C13_hash_5 (ds : FpVar Fq) (v : FpVar Fq × FpVar Fq × FpVar Fq × FpVar Fq × FpVar Fq) (cs cs' : CS Fq) (out : FpVar Fq)
    (h : R1cs.hash5 ds v cs = .ok (out, cs')) (σ : R1cs.Variable → Fq) (hσ : Satisfies σ cs') :
    Poseidon.hash5 (ds.eval σ) (v.1.eval σ, v.2.1.eval σ, v.2.2.1.eval σ, v.2.2.2.1.eval σ, v.2.2.2.2.eval σ) = .ok (out.eval σ) := by
  obtain ⟨inst', h1⟩ := C13_circuit_native 4 #v[ds, v.1, v.2.1, v.2.2.1, v.2.2.2.1, v.2.2.2.2] cs cs' out h σ hσ
  have h2 : Instance.nTo1FixedHash (Instance.new rate5Params) (Vector.map (FpVar.eval σ) #v[ds, v.1, v.2.1, v.2.2.1, v.2.2.2.1, v.2.2.2.2]) =
      .ok (out.eval σ, inst') := h1
  have hmap : Vector.map (FpVar.eval σ) #v[ds, v.1, v.2.1, v.2.2.1, v.2.2.2.1, v.2.2.2.2] =
      #v[ds.eval σ, v.1.eval σ, v.2.1.eval σ, v.2.2.1.eval σ, v.2.2.2.1.eval σ, v.2.2.2.2.eval σ] := by simp
  rw [hmap] at h2
  rw [Poseidon.hash5, h2]
  rfl

/-- C10: if the inputs carry the values `dx`, `x`, circuit `hash_5` succeeds, its result carries the native
hash, and the stored assignment satisfies the new constraints. -/
theorem C10_hash_5 (ds : FpVar Fq) (v : FpVar Fq × FpVar Fq × FpVar Fq × FpVar Fq × FpVar Fq) (dx : Fq) (x : Fq × Fq × Fq × Fq × Fq) (cs : CS Fq) (hcs : Proving cs)
    (hvar : (ds.isVar || v.1.isVar || v.2.1.isVar || v.2.2.1.isVar || v.2.2.2.1.isVar || v.2.2.2.2.isVar) = true) (h0 : Carries cs ds dx) (h1 : Carries cs v.1 x.1) (h2 : Carries cs v.2.1 x.2.1) (h3 : Carries cs v.2.2.1 x.2.2.1) (h4 : Carries cs v.2.2.2.1 x.2.2.2.1) (h5 : Carries cs v.2.2.2.2 x.2.2.2.2) :
    ∃ out cs' d, R1cs.hash5 ds v cs = .ok (out, cs') ∧ Poseidon.hash5 dx x = .ok d ∧ Proving cs' ∧
      Carries cs' out d ∧ ∀ σ, Stored cs' σ → Stored cs σ ∧ (Satisfies σ cs → Satisfies σ cs') := by
  obtain ⟨out, cs', d, inst', g1, g2, g3, g4, g5⟩ := C10_shipped 4 #v[ds, v.1, v.2.1, v.2.2.1, v.2.2.2.1, v.2.2.2.2] #v[dx, x.1, x.2.1, x.2.2.1, x.2.2.2.1, x.2.2.2.2] cs hcs
    (by
      simp only [Bool.or_eq_true] at hvar
      by_contra hn
      push Not at hn
      have hn' : ∀ j : Fin 6, (#v[ds, v.1, v.2.1, v.2.2.1, v.2.2.2.1, v.2.2.2.2] : Vector (FpVar Fq) 6)[j].isVar ≠ true := hn
      simp only [Fin.forall_fin_succ, IsEmpty.forall_iff] at hn'
      simp at hn'
      simp [hn'] at hvar)
    (fun j => by
      have : ∀ j : Fin 6, Carries cs (#v[ds, v.1, v.2.1, v.2.2.1, v.2.2.2.1, v.2.2.2.2] : Vector (FpVar Fq) 6)[j] (#v[dx, x.1, x.2.1, x.2.2.1, x.2.2.2.1, x.2.2.2.2] : Vector Fq 6)[j] := by
        simp only [Fin.forall_fin_succ, IsEmpty.forall_iff]
        exact ⟨h0, h1, h2, h3, h4, h5, trivial⟩
      exact this j)
  refine ⟨out, cs', d, g1, ?_, g3, g4, g5⟩
  have h2 : Instance.nTo1FixedHash (Instance.new rate5Params) #v[dx, x.1, x.2.1, x.2.2.1, x.2.2.2.1, x.2.2.2.2] = .ok (d, inst') := g2
  rw [Poseidon.hash5, h2]
  rfl

/-- C12: size of circuit `hash_5`; with 6 variable inputs it is 395. -/
theorem C12_hash_5 (ds : FpVar Fq) (v : FpVar Fq × FpVar Fq × FpVar Fq × FpVar Fq × FpVar Fq) (cs cs' : CS Fq) (out : FpVar Fq)
    (h : R1cs.hash5 ds v cs = .ok (out, cs')) :
    cs'.constraints.length = cs.constraints.length + 5 * (List.countP FpVar.isVar [ds, v.1, v.2.1, v.2.2.1, v.2.2.2.1, v.2.2.2.2] + 7 * 6 + 31) ∧
    cs'.numWitness = cs.numWitness + 5 * (List.countP FpVar.isVar [ds, v.1, v.2.1, v.2.2.1, v.2.2.2.1, v.2.2.2.2] + 7 * 6 + 31) ∧
    cs'.numInstance = cs.numInstance :=
  C12_shipped 4 #v[ds, v.1, v.2.1, v.2.2.1, v.2.2.2.1, v.2.2.2.2] cs cs' out h

/-- C47: circuit `hash_5` on constants panics. -/
theorem C47_hash_5 (dx : Fq) (x : Fq × Fq × Fq × Fq × Fq) (cs : CS Fq) :
    ∃ e, R1cs.hash5 (.constant dx) (.constant x.1, .constant x.2.1, .constant x.2.2.1, .constant x.2.2.2.1, .constant x.2.2.2.2) cs = .error e := by
  obtain ⟨e, h⟩ := C47_shipped 4 #v[dx, x.1, x.2.1, x.2.2.1, x.2.2.2.1, x.2.2.2.2] cs
  have h' : R1cs.nTo1FixedHash rate5Params (Vector.map FpVar.constant #v[dx, x.1, x.2.1, x.2.2.1, x.2.2.2.1, x.2.2.2.2]) cs = .error e := h
  have hmap : Vector.map FpVar.constant #v[dx, x.1, x.2.1, x.2.2.1, x.2.2.2.1, x.2.2.2.2] =
      #v[.constant dx, .constant x.1, .constant x.2.1, .constant x.2.2.1, .constant x.2.2.2.1, .constant x.2.2.2.2] := by simp
  rw [hmap] at h'
  exact ⟨e, h'⟩

/-! ### `hash_6` -/

/-- C13: circuit `hash_6` agrees with native `hash_6` under every satisfying assignment. -/
theorem C13_hash_6 (ds : FpVar Fq) (v : FpVar Fq × FpVar Fq × FpVar Fq × FpVar Fq × FpVar Fq × FpVar Fq) (cs cs' : CS Fq) (out : FpVar Fq)
    (h : R1cs.hash6 ds v cs = .ok (out, cs')) (σ : R1cs.Variable → Fq) (hσ : Satisfies σ cs') :
    Poseidon.hash6 (ds.eval σ) (v.1.eval σ, v.2.1.eval σ, v.2.2.1.eval σ, v.2.2.2.1.eval σ, v.2.2.2.2.1.eval σ, v.2.2.2.2.2.eval σ) = .ok (out.eval σ) := by
  obtain ⟨inst', h1⟩ := C13_circuit_native 5 #v[ds, v.1, v.2.1, v.2.2.1, v.2.2.2.1, v.2.2.2.2.1, v.2.2.2.2.2] cs cs' out h σ hσ
  have h2 : Instance.nTo1FixedHash (Instance.new rate6Params) (Vector.map (FpVar.eval σ) #v[ds, v.1, v.2.1, v.2.2.1, v.2.2.2.1, v.2.2.2.2.1, v.2.2.2.2.2]) =
      .ok (out.eval σ, inst') := h1
  have hmap : Vector.map (FpVar.eval σ) #v[ds, v.1, v.2.1, v.2.2.1, v.2.2.2.1, v.2.2.2.2.1, v.2.2.2.2.2] =
      #v[ds.eval σ, v.1.eval σ, v.2.1.eval σ, v.2.2.1.eval σ, v.2.2.2.1.eval σ, v.2.2.2.2.1.eval σ, v.2.2.2.2.2.eval σ] := by simp
  rw [hmap] at h2
  rw [Poseidon.hash6, h2]
  rfl

/-- C10: if the inputs carry the values `dx`, `x`, circuit `hash_6` succeeds, its result carries the native
hash, and the stored assignment satisfies the new constraints. -/
theorem C10_hash_6 (ds : FpVar Fq) (v : FpVar Fq × FpVar Fq × FpVar Fq × FpVar Fq × FpVar Fq × FpVar Fq) (dx : Fq) (x : Fq × Fq × Fq × Fq × Fq × Fq) (cs : CS Fq) (hcs : Proving cs)
    (hvar : (ds.isVar || v.1.isVar || v.2.1.isVar || v.2.2.1.isVar || v.2.2.2.1.isVar || v.2.2.2.2.1.isVar || v.2.2.2.2.2.isVar) = true) (h0 : Carries cs ds dx) (h1 : Carries cs v.1 x.1) (h2 : Carries cs v.2.1 x.2.1) (h3 : Carries cs v.2.2.1 x.2.2.1) (h4 : Carries cs v.2.2.2.1 x.2.2.2.1) (h5 : Carries cs v.2.2.2.2.1 x.2.2.2.2.1) (h6 : Carries cs v.2.2.2.2.2 x.2.2.2.2.2) :
    ∃ out cs' d, R1cs.hash6 ds v cs = .ok (out, cs') ∧ Poseidon.hash6 dx x = .ok d ∧ Proving cs' ∧
      Carries cs' out d ∧ ∀ σ, Stored cs' σ → Stored cs σ ∧ (Satisfies σ cs → Satisfies σ cs') := by
  obtain ⟨out, cs', d, inst', g1, g2, g3, g4, g5⟩ := C10_shipped 5 #v[ds, v.1, v.2.1, v.2.2.1, v.2.2.2.1, v.2.2.2.2.1, v.2.2.2.2.2] #v[dx, x.1, x.2.1, x.2.2.1, x.2.2.2.1, x.2.2.2.2.1, x.2.2.2.2.2] cs hcs
    (by
      simp only [Bool.or_eq_true] at hvar
      by_contra hn
      push Not at hn
      have hn' : ∀ j : Fin 7, (#v[ds, v.1, v.2.1, v.2.2.1, v.2.2.2.1, v.2.2.2.2.1, v.2.2.2.2.2] : Vector (FpVar Fq) 7)[j].isVar ≠ true := hn
      simp only [Fin.forall_fin_succ, IsEmpty.forall_iff] at hn'
      simp at hn'
      simp [hn'] at hvar)
    (fun j => by
      have : ∀ j : Fin 7, Carries cs (#v[ds, v.1, v.2.1, v.2.2.1, v.2.2.2.1, v.2.2.2.2.1, v.2.2.2.2.2] : Vector (FpVar Fq) 7)[j] (#v[dx, x.1, x.2.1, x.2.2.1, x.2.2.2.1, x.2.2.2.2.1, x.2.2.2.2.2] : Vector Fq 7)[j] := by
        simp only [Fin.forall_fin_succ, IsEmpty.forall_iff]
        exact ⟨h0, h1, h2, h3, h4, h5, h6, trivial⟩
      exact this j)
  refine ⟨out, cs', d, g1, ?_, g3, g4, g5⟩
  have h2 : Instance.nTo1FixedHash (Instance.new rate6Params) #v[dx, x.1, x.2.1, x.2.2.1, x.2.2.2.1, x.2.2.2.2.1, x.2.2.2.2.2] = .ok (d, inst') := g2
  rw [Poseidon.hash6, h2]
  rfl

/-- C12: size of circuit `hash_6`; with 7 variable inputs it is 435. -/
theorem C12_hash_6 (ds : FpVar Fq) (v : FpVar Fq × FpVar Fq × FpVar Fq × FpVar Fq × FpVar Fq × FpVar Fq) (cs cs' : CS Fq) (out : FpVar Fq)
    (h : R1cs.hash6 ds v cs = .ok (out, cs')) :
    cs'.constraints.length = cs.constraints.length + 5 * (List.countP FpVar.isVar [ds, v.1, v.2.1, v.2.2.1, v.2.2.2.1, v.2.2.2.2.1, v.2.2.2.2.2] + 7 * 7 + 31) ∧
    cs'.numWitness = cs.numWitness + 5 * (List.countP FpVar.isVar [ds, v.1, v.2.1, v.2.2.1, v.2.2.2.1, v.2.2.2.2.1, v.2.2.2.2.2] + 7 * 7 + 31) ∧
    cs'.numInstance = cs.numInstance :=
  C12_shipped 5 #v[ds, v.1, v.2.1, v.2.2.1, v.2.2.2.1, v.2.2.2.2.1, v.2.2.2.2.2] cs cs' out h

/-- C47: circuit `hash_6` on constants panics. -/
theorem C47_hash_6 (dx : Fq) (x : Fq × Fq × Fq × Fq × Fq × Fq) (cs : CS Fq) :
    ∃ e, R1cs.hash6 (.constant dx) (.constant x.1, .constant x.2.1, .constant x.2.2.1, .constant x.2.2.2.1, .constant x.2.2.2.2.1, .constant x.2.2.2.2.2) cs = .error e := by
  obtain ⟨e, h⟩ := C47_shipped 5 #v[dx, x.1, x.2.1, x.2.2.1, x.2.2.2.1, x.2.2.2.2.1, x.2.2.2.2.2] cs
  have h' : R1cs.nTo1FixedHash rate6Params (Vector.map FpVar.constant #v[dx, x.1, x.2.1, x.2.2.1, x.2.2.2.1, x.2.2.2.2.1, x.2.2.2.2.2]) cs = .error e := h
  have hmap : Vector.map FpVar.constant #v[dx, x.1, x.2.1, x.2.2.1, x.2.2.2.1, x.2.2.2.2.1, x.2.2.2.2.2] =
      #v[.constant dx, .constant x.1, .constant x.2.1, .constant x.2.2.1, .constant x.2.2.2.1, .constant x.2.2.2.2.1, .constant x.2.2.2.2.2] := by simp
  rw [hmap] at h'
  exact ⟨e, h'⟩

/-! ### `hash_7` -/

/-- C13: circuit `hash_7` agrees with native `hash_7` under every satisfying assignment. -/
theorem C13_hash_7 (ds : FpVar Fq) (v : FpVar Fq × FpVar Fq × FpVar Fq × FpVar Fq × FpVar Fq × FpVar Fq × FpVar Fq) (cs cs' : CS Fq) (out : FpVar Fq)
    (h : R1cs.hash7 ds v cs = .ok (out, cs')) (σ : R1cs.Variable → Fq) (hσ : Satisfies σ cs') :
    Poseidon.hash7 (ds.eval σ) (v.1.eval σ, v.2.1.eval σ, v.2.2.1.eval σ, v.2.2.2.1.eval σ, v.2.2.2.2.1.eval σ, v.2.2.2.2.2.1.eval σ, v.2.2.2.2.2.2.eval σ) = .ok (out.eval σ) := by
  obtain ⟨inst', h1⟩ := C13_circuit_native 6 #v[ds, v.1, v.2.1, v.2.2.1, v.2.2.2.1, v.2.2.2.2.1, v.2.2.2.2.2.1, v.2.2.2.2.2.2] cs cs' out h σ hσ
  have h2 : Instance.nTo1FixedHash (Instance.new rate7Params) (Vector.map (FpVar.eval σ) #v[ds, v.1, v.2.1, v.2.2.1, v.2.2.2.1, v.2.2.2.2.1, v.2.2.2.2.2.1, v.2.2.2.2.2.2]) =
      .ok (out.eval σ, inst') := h1
  have hmap : Vector.map (FpVar.eval σ) #v[ds, v.1, v.2.1, v.2.2.1, v.2.2.2.1, v.2.2.2.2.1, v.2.2.2.2.2.1, v.2.2.2.2.2.2] =
      #v[ds.eval σ, v.1.eval σ, v.2.1.eval σ, v.2.2.1.eval σ, v.2.2.2.1.eval σ, v.2.2.2.2.1.eval σ, v.2.2.2.2.2.1.eval σ, v.2.2.2.2.2.2.eval σ] := by simp
  rw [hmap] at h2
  rw [Poseidon.hash7, h2]
  rfl

/-- C10: if the inputs carry the values `dx`, `x`, circuit `hash_7` succeeds, its result carries the native
hash, and the stored assignment satisfies the new constraints. -/
theorem C10_hash_7 (ds : FpVar Fq) (v : FpVar Fq × FpVar Fq × FpVar Fq × FpVar Fq × FpVar Fq × FpVar Fq × FpVar Fq) (dx : Fq) (x : Fq × Fq × Fq × Fq × Fq × Fq × Fq) (cs : CS Fq) (hcs : Proving cs)
    (hvar : (ds.isVar || v.1.isVar || v.2.1.isVar || v.2.2.1.isVar || v.2.2.2.1.isVar || v.2.2.2.2.1.isVar || v.2.2.2.2.2.1.isVar || v.2.2.2.2.2.2.isVar) = true) (h0 : Carries cs ds dx) (h1 : Carries cs v.1 x.1) (h2 : Carries cs v.2.1 x.2.1) (h3 : Carries cs v.2.2.1 x.2.2.1) (h4 : Carries cs v.2.2.2.1 x.2.2.2.1) (h5 : Carries cs v.2.2.2.2.1 x.2.2.2.2.1) (h6 : Carries cs v.2.2.2.2.2.1 x.2.2.2.2.2.1) (h7 : Carries cs v.2.2.2.2.2.2 x.2.2.2.2.2.2) :
    ∃ out cs' d, R1cs.hash7 ds v cs = .ok (out, cs') ∧ Poseidon.hash7 dx x = .ok d ∧ Proving cs' ∧
      Carries cs' out d ∧ ∀ σ, Stored cs' σ → Stored cs σ ∧ (Satisfies σ cs → Satisfies σ cs') := by
  obtain ⟨out, cs', d, inst', g1, g2, g3, g4, g5⟩ := C10_shipped 6 #v[ds, v.1, v.2.1, v.2.2.1, v.2.2.2.1, v.2.2.2.2.1, v.2.2.2.2.2.1, v.2.2.2.2.2.2] #v[dx, x.1, x.2.1, x.2.2.1, x.2.2.2.1, x.2.2.2.2.1, x.2.2.2.2.2.1, x.2.2.2.2.2.2] cs hcs
    (by
      simp only [Bool.or_eq_true] at hvar
      by_contra hn
      push Not at hn
      have hn' : ∀ j : Fin 8, (#v[ds, v.1, v.2.1, v.2.2.1, v.2.2.2.1, v.2.2.2.2.1, v.2.2.2.2.2.1, v.2.2.2.2.2.2] : Vector (FpVar Fq) 8)[j].isVar ≠ true := hn
      simp only [Fin.forall_fin_succ, IsEmpty.forall_iff] at hn'
      simp at hn'
      simp [hn'] at hvar)
    (fun j => by
      have : ∀ j : Fin 8, Carries cs (#v[ds, v.1, v.2.1, v.2.2.1, v.2.2.2.1, v.2.2.2.2.1, v.2.2.2.2.2.1, v.2.2.2.2.2.2] : Vector (FpVar Fq) 8)[j] (#v[dx, x.1, x.2.1, x.2.2.1, x.2.2.2.1, x.2.2.2.2.1, x.2.2.2.2.2.1, x.2.2.2.2.2.2] : Vector Fq 8)[j] := by
        simp only [Fin.forall_fin_succ, IsEmpty.forall_iff]
        exact ⟨h0, h1, h2, h3, h4, h5, h6, h7, trivial⟩
      exact this j)
  refine ⟨out, cs', d, g1, ?_, g3, g4, g5⟩
  have h2 : Instance.nTo1FixedHash (Instance.new rate7Params) #v[dx, x.1, x.2.1, x.2.2.1, x.2.2.2.1, x.2.2.2.2.1, x.2.2.2.2.2.1, x.2.2.2.2.2.2] = .ok (d, inst') := g2
  rw [Poseidon.hash7, h2]
  rfl

/-- C12: size of circuit `hash_7`; with 8 variable inputs it is 475. -/
theorem C12_hash_7 (ds : FpVar Fq) (v : FpVar Fq × FpVar Fq × FpVar Fq × FpVar Fq × FpVar Fq × FpVar Fq × FpVar Fq) (cs cs' : CS Fq) (out : FpVar Fq)
    (h : R1cs.hash7 ds v cs = .ok (out, cs')) :
    cs'.constraints.length = cs.constraints.length + 5 * (List.countP FpVar.isVar [ds, v.1, v.2.1, v.2.2.1, v.2.2.2.1, v.2.2.2.2.1, v.2.2.2.2.2.1, v.2.2.2.2.2.2] + 7 * 8 + 31) ∧
    cs'.numWitness = cs.numWitness + 5 * (List.countP FpVar.isVar [ds, v.1, v.2.1, v.2.2.1, v.2.2.2.1, v.2.2.2.2.1, v.2.2.2.2.2.1, v.2.2.2.2.2.2] + 7 * 8 + 31) ∧
    cs'.numInstance = cs.numInstance :=
  C12_shipped 6 #v[ds, v.1, v.2.1, v.2.2.1, v.2.2.2.1, v.2.2.2.2.1, v.2.2.2.2.2.1, v.2.2.2.2.2.2] cs cs' out h

/-- C47: circuit `hash_7` on constants panics. -/
theorem C47_hash_7 (dx : Fq) (x : Fq × Fq × Fq × Fq × Fq × Fq × Fq) (cs : CS Fq) :
    ∃ e, R1cs.hash7 (.constant dx) (.constant x.1, .constant x.2.1, .constant x.2.2.1, .constant x.2.2.2.1, .constant x.2.2.2.2.1, .constant x.2.2.2.2.2.1, .constant x.2.2.2.2.2.2) cs = .error e := by
  obtain ⟨e, h⟩ := C47_shipped 6 #v[dx, x.1, x.2.1, x.2.2.1, x.2.2.2.1, x.2.2.2.2.1, x.2.2.2.2.2.1, x.2.2.2.2.2.2] cs
  have h' : R1cs.nTo1FixedHash rate7Params (Vector.map FpVar.constant #v[dx, x.1, x.2.1, x.2.2.1, x.2.2.2.1, x.2.2.2.2.1, x.2.2.2.2.2.1, x.2.2.2.2.2.2]) cs = .error e := h
  have hmap : Vector.map FpVar.constant #v[dx, x.1, x.2.1, x.2.2.1, x.2.2.2.1, x.2.2.2.2.1, x.2.2.2.2.2.1, x.2.2.2.2.2.2] =
      #v[.constant dx, .constant x.1, .constant x.2.1, .constant x.2.2.1, .constant x.2.2.2.1, .constant x.2.2.2.2.1, .constant x.2.2.2.2.2.1, .constant x.2.2.2.2.2.2] := by simp
  rw [hmap] at h'
  exact ⟨e, h'⟩

/-! ### Non-vacuity -/

/-- A prover's constraint system with two witnesses, 3 and 5, and no constraint. -/
def demoCS : CS Fq := { setup := false, numInstance := 1, numWitness := 2, instanceAssignment := [1],
                        witnessAssignment := [3, 5], constraints := [] }

/-- Its two variables. -/
def demoVar (i : Nat) (x : Fq) : FpVar Fq := .var ⟨some x, [(1, .witness i)]⟩

theorem demo_carries (i : Nat) (x : Fq) (h : demoCS.witnessAssignment[i]? = some x) :
    Carries demoCS (demoVar i x) x :=
  ⟨rfl, fun σ hσ => by simp [LC.eval, hσ.2.2 i x h]⟩

/-- The hypotheses of C09 – C13 are met: on variables carrying 3 and 5, circuit `hash_1` succeeds, some
assignment satisfies its 235 constraints, and it assigns the inputs 3 and 5. -/
example : ∃ out cs' σ, R1cs.hash1 (demoVar 0 3) (demoVar 1 5) demoCS = .ok (out, cs') ∧ Satisfies σ cs' ∧
    (demoVar 0 3).eval σ = 3 ∧ (demoVar 1 5).eval σ = 5 ∧ cs'.constraints.length = 235 := by
  obtain ⟨out, cs', d, h1, h2, h3, h4, h5⟩ := C10_hash_1 (demoVar 0 3) (demoVar 1 5) 3 5 demoCS ⟨rfl, rfl⟩ rfl
    (demo_carries 0 3 rfl) (demo_carries 1 5 rfl)
  let σ : R1cs.Variable → Fq := fun
    | .one => 1
    | .input i => cs'.instanceAssignment.getD i 0
    | .witness i => cs'.witnessAssignment.getD i 0
  have hσ : Stored cs' σ := by
    refine ⟨rfl, fun i x hx => ?_, fun i x hx => ?_⟩
    · show cs'.instanceAssignment.getD i 0 = x
      rw [List.getD_eq_getElem?_getD, hx]; rfl
    · show cs'.witnessAssignment.getD i 0 = x
      rw [List.getD_eq_getElem?_getD, hx]; rfl
  obtain ⟨h6, h7⟩ := h5 σ hσ
  refine ⟨out, cs', σ, h1, h7 ⟨rfl, by simp [demoCS]⟩, ?_, ?_, ?_⟩
  · exact (demo_carries 0 3 rfl).2 σ h6
  · exact (demo_carries 1 5 rfl).2 σ h6
  · have := (C12_hash_1 _ _ _ _ _ h1).1
    rw [this]
    rfl

end Poseidon
