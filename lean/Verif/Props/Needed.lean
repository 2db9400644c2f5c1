import Verif.Proofs.Fault
import Verif.Props.CircuitHash

/-!
# No constraint of the circuit hash is superfluous (C112)

If one constraint is left out, a prover can show a false digest.
-/

set_option linter.unusedSectionVars false

namespace Poseidon

open R1cs Polynomial

/-! ## Shipped parameters -/

theorem shipped_suffix (i : Fin 7) : ∀ (n : Nat) (hn : n < (fullFlags 4 31).length) (j : Fin (i.val + 2)), Active (fullFlags 4 31)[n] j →
    leadRounds 17 ((shippedParams i).mds.toM rfl) ((fullFlags 4 31).drop (n + 1)) (fun a => (shippedParams i).mds.toM rfl a j)
      ⟨1, by omega⟩ ≠ 0 := by
  have hM : ∀ (m : List Nat), (shippedParams i).mds.toM rfl = natM (i.val + 2) (i.val + 2) m → checkSuffix (i.val + 2) m (fullFlags 4 31) = true →
      ∀ (n : Nat) (hn : n < (fullFlags 4 31).length) (j : Fin (i.val + 2)), Active (fullFlags 4 31)[n] j →
      leadRounds 17 ((shippedParams i).mds.toM rfl) ((fullFlags 4 31).drop (n + 1)) (fun a => (shippedParams i).mds.toM rfl a j)
        ⟨1, by omega⟩ ≠ 0 := by
    intro m h1 h2
    rw [h1]
    exact checkSuffix_spec (by omega) h2
  fin_cases i
  · exact hM (canons rate1_mds) (vecM _ _ rfl) (by decide +kernel)
  · exact hM (canons rate2_mds) (vecM _ _ rfl) (by decide +kernel)
  · exact hM (canons rate3_mds) (vecM _ _ rfl) (by decide +kernel)
  · exact hM (canons rate4_mds) (vecM _ _ rfl) (by decide +kernel)
  · exact hM (canons rate5_mds) (vecM _ _ rfl) (by decide +kernel)
  · exact hM (canons rate6_mds) (vecM _ _ rfl) (by decide +kernel)
  · exact hM (canons rate7_mds) (vecM _ _ rfl) (by decide +kernel)

theorem shipped_prefix (i : Fin 7) : ∀ (n : Nat), 1 ≤ n → n ≤ (fullFlags 4 31).length → ∀ a,
    leadRounds 17 ((shippedParams i).mds.toM rfl) ((fullFlags 4 31).take n) (Pi.single ⟨1, by omega⟩ 1) a ≠ 0 := by
  have hM : ∀ (m : List Nat), (shippedParams i).mds.toM rfl = natM (i.val + 2) (i.val + 2) m →
      checkPrefix (i.val + 2) m (fullFlags 4 31) (unitN (i.val + 2) 1) = true → ∀ (n : Nat), 1 ≤ n → n ≤ (fullFlags 4 31).length → ∀ a,
      leadRounds 17 ((shippedParams i).mds.toM rfl) ((fullFlags 4 31).take n) (Pi.single ⟨1, by omega⟩ 1) a ≠ 0 := by
    intro m h1 h2
    rw [h1, ← unitN_cast (⟨1, by omega⟩ : Fin (i.val + 2))]
    exact checkPrefix_spec h2
  fin_cases i
  · exact hM (canons rate1_mds) (vecM _ _ rfl) (by decide +kernel)
  · exact hM (canons rate2_mds) (vecM _ _ rfl) (by decide +kernel)
  · exact hM (canons rate3_mds) (vecM _ _ rfl) (by decide +kernel)
  · exact hM (canons rate4_mds) (vecM _ _ rfl) (by decide +kernel)
  · exact hM (canons rate5_mds) (vecM _ _ rfl) (by decide +kernel)
  · exact hM (canons rate6_mds) (vecM _ _ rfl) (by decide +kernel)
  · exact hM (canons rate7_mds) (vecM _ _ rfl) (by decide +kernel)

theorem fullFlags_length : (fullFlags 4 31).length = 39 := by simp [fullFlags]

/-- The round constants by the number of the round -/
def arcAt (i : Fin 7) (r : Nat) (j : Fin (i.val + 2)) : Fq := if h : r < 39 then shippedArc i ⟨r, h⟩ j else 0

theorem arcAt_get (i : Fin 7) (r : Nat) (hr : r < 39) (j : Fin (i.val + 2)) :
    (shippedParams i).arc.elements[r * (i.val + 2) + j.val]? = some (arcAt i r j) := by
  rw [arcAt, dif_pos hr, Vector.getElem?_eq_getElem (flat_lt hr j.isLt)]
  rfl

theorem permute_run (i : Fin 7) (s : List (FpVar Fq)) (cs : CS Fq) :
    R1cs.permute (shippedParams i) s cs = (forList (fullFlags 4 31) (s, 0 * (i.val + 2), cs) fun full st => R1cs.round (shippedParams i) full st) >>=
      fun st => .ok (st.1, st.2.2) := by
  rw [permute_flags, shipped_rounds, Nat.zero_mul]
  rfl

/-- The words of the inputs -/
def inWords {t : Nat} (σ : R1cs.Variable → Fq) (inputs : Vector (FpVar Fq) t) : Fin t → Fq := fun j => inputs[j].eval σ

/-- Where the missing row is, and what that allows. -/
theorem hash_fault (i : Fin 7) (inputs : Vector (FpVar Fq) (i.val + 2)) (hv : ∀ j : Fin (i.val + 2), j ≠ 0 → inputs[j].isVar = true)
    {cs cs' : CS Fq} {out : FpVar Fq}
    (h : R1cs.nTo1FixedHash (shippedParams i) inputs cs = .ok (out, cs')) {k : Nat} (hk1 : cs.constraints.length ≤ k)
    (hk2 : k < cs'.constraints.length) :
    ∃ (n : Nat) (j : Fin (i.val + 2)) (b : Nat), n < 39 ∧ b < 5 ∧ (n = 0 → inputs[j].isVar = true) ∧
      (∀ x, foldRounds ((shippedParams i).mds.toM rfl) (arcAt i) 0 ((fullFlags 4 31).take n) x j + arcAt i n j ≠ 0 →
        ∀ d, ∃ u D, D ≠ d ∧ ∀ τ, SatisfiesBut k τ cs' → inWords τ inputs = x →
          τ (.witness (cs.numWitness + (k - cs.constraints.length))) = u → out.eval τ = D) ∧
      ∀ σ, Satisfies σ cs' → (σ (.witness (cs.numWitness + (k - cs.constraints.length))) ≠ 0 ↔
        foldRounds ((shippedParams i).mds.toM rfl) (arcAt i) 0 ((fullFlags 4 31).take n) (inWords σ inputs) j + arcAt i n j ≠ 0) := by
  obtain ⟨c, hc1, hc⟩ : ∃ c, c ≤ 1 ∧ ∀ j : Fin (i.val + 2), inputs[j].isVar = decide (c ≤ j.val) := by
    by_cases h0 : inputs[(0 : Fin (i.val + 2))].isVar = true
    · refine ⟨0, by omega, fun j => ?_⟩
      by_cases hj : j = 0
      · rw [hj, h0]; simp
      · rw [hv j hj]; simp
    · refine ⟨1, by omega, fun j => ?_⟩
      by_cases hj : j = 0
      · rw [hj, Bool.eq_false_iff.2 h0]; simp
      · rw [hv j hj]
        have : j.val ≠ 0 := fun h => hj (Fin.ext h)
        simp; omega
  unfold R1cs.nTo1FixedHash at h
  obtain ⟨⟨s', cs1⟩, h1, h2⟩ := run_bind_ok h
  obtain ⟨out', h3, h4⟩ := run_bind_ok h2
  cases h4
  rw [permute_run] at h1
  obtain ⟨st, h5, h6⟩ := run_bind_ok h1
  cases h6
  have hsl : inputs.toList.length = i.val + 2 := by simp
  obtain ⟨hs', hF⟩ := rounds_fault (shippedParams i) (shipped_alpha i) (by omega) rfl (C := arcAt i) (N := 39)
    (fun r hr j => arcAt_get i r hr j) (fullFlags 4 31) inputs.toList 0 cs hsl c (by rw [fullFlags_length]) (fun j hj => by
      have := hc ⟨j, by simpa using hj⟩
      simpa using this) (fun b hb hb' => by
      have : (fullFlags 4 31).head? = some true := by decide
      rw [this] at hb
      cases hb
      cases hb') (by omega) st h5
  obtain ⟨n, hn, j, b, hb, hact, hn0, hσ⟩ := hF k hk1 hk2
  have hn39 : n < 39 := by rw [← fullFlags_length]; exact hn
  have hword : ∀ σ : R1cs.Variable → Fq, wordsOf σ inputs.toList hsl = inWords σ inputs := by
    intro σ
    funext a
    simp [wordsOf, inWords]
  have hout : ∀ σ : R1cs.Variable → Fq, out.eval σ = wordsOf σ st.1 hs' ⟨1, by omega⟩ := by
    intro σ
    rw [lget_lt _ (show 1 < st.1.length by omega)] at h3
    cases h3
    rfl
  refine ⟨n, j, b, hn39, hb, fun h0 => by rw [hc j]; simpa using hn0 h0, fun x hx d => ?_, fun σ hsat => ?_⟩
  · obtain ⟨u, hu⟩ := fault_differs (arcAt i) (0 + n + 1) ((fullFlags 4 31).drop (n + 1)) (by rw [List.length_drop, fullFlags_length]; omega)
      (fullFlags 4 31)[n] (arcAt i n) _ j ⟨1, by omega⟩ (shipped_suffix i n hn j hact) hb (Or.inl hx) d
    refine ⟨u, _, hu, fun τ t1 t2 t3 => ?_⟩
    obtain ⟨z', hz', e1, -⟩ := hσ τ t1.1 fun m hm hmk con hcon => t1.2 m con hmk hcon
    rw [hword, t2] at hz'
    subst hz'
    rw [hout, e1, t3]
    simp only [Nat.zero_add]
    rfl
  · obtain ⟨z', hz', -, e2⟩ := hσ σ hsat.1 fun m hm hmk con hcon => hsat.2 con (List.mem_of_getElem? hcon)
    have e2 := e2 fun con hcon => hsat.2 con (List.mem_of_getElem? hcon)
    rw [hword] at hz'
    rw [Nat.zero_add, hz'] at e2
    rw [e2]
    have hb0 : boxPow b ≠ 0 := by
      rw [boxPow]
      split_ifs
      · decide
      · positivity
    exact pow_ne_zero_iff hb0

/-- As `hash_fault`, from an assignment to the variables before the hash. -/
theorem hash_fault_at {i : Fin 7} {inputs : Vector (FpVar Fq) (i.val + 2)} {cs cs' : CS Fq} {out : FpVar Fq} (hw : WellFormed cs)
    (hk : ∀ j : Fin (i.val + 2), inputs[j].Known cs) (hg : Grows cs cs') {k : Nat} (hk1 : cs.constraints.length ≤ k)
    (hk2 : k < cs'.constraints.length) {σ : R1cs.Variable → Fq} (hσ : Satisfies σ cs) {d : Fq}
    (h : ∃ u D, D ≠ d ∧ ∀ τ, SatisfiesBut k τ cs' → inWords τ inputs = inWords σ inputs →
      τ (.witness (cs.numWitness + (k - cs.constraints.length))) = u → out.eval τ = D) :
    ∃ τ, SatisfiesBut k τ cs' ∧ AgreeOn cs σ τ ∧ out.eval τ ≠ d := by
  obtain ⟨u, D, hD, h⟩ := h
  obtain ⟨τ, t1, t2, t3⟩ := hg.fault hw (hσ.but k) u
  refine ⟨τ, t1, t2, ?_⟩
  rw [h τ t1 (funext fun a => (FpVar.eval_agreeOn t2 (hk a)).symm) (t3 hk1 hk2)]
  exact hD

/-- The native hash, as a value. -/
theorem native_value (i : Fin 7) (x : Vector Fq (i.val + 2)) :
    ∃ d inst', (Instance.new (shippedParams i)).nTo1FixedHash x = .ok (d, inst') := by
  have h2 := nTo1_perm377 i (Vector.replicate _ 0) (fun j => x[j])
  have hx : Vector.ofFn (fun j : Fin (i.val + 2) => x[j]) = x := by ext; simp
  rw [hx] at h2
  exact ⟨_, _, h2⟩

/-- Some choice of the free words makes word `j` before round `n` anything but `c`. -/
theorem word_ne (i : Fin 7) (x : Fin (i.val + 2) → Fq) (n : Nat) (h1 : 1 ≤ n) (hn : n < 39) (j : Fin (i.val + 2)) (c : Fq) :
    ∃ u, foldRounds ((shippedParams i).mds.toM rfl) (arcAt i) 0 ((fullFlags 4 31).take n) (Function.update x ⟨1, by omega⟩ u) j ≠ c := by
  have hl : ((fullFlags 4 31).take n).length = n := by rw [List.length_take, fullFlags_length]; omega
  obtain ⟨Q, q1, q2⟩ := rounds_poly (e := 17) ((shippedParams i).mds.toM rfl) (fun p : Bool × Nat => p.1) (fun p => arcAt i p.2) (by norm_num)
    (((fullFlags 4 31).take n).zipIdx 0) (le_refl 1) (varWord_top x ⟨1, by omega⟩)
  have hfst : (((fullFlags 4 31).take n).zipIdx 0).map (fun p : Bool × Nat => p.1) = (fullFlags 4 31).take n := List.zipIdx_map_fst 0 _
  rw [List.length_zipIdx, one_mul, hfst, hl] at q1
  have hQ : (Q j).natDegree = 17 ^ n := by
    apply le_antisymm (q1 j).1
    apply le_natDegree_of_ne_zero
    rw [(q1 j).2]
    exact shipped_prefix i n h1 (by rw [fullFlags_length]; omega) j
  obtain ⟨u, hu⟩ := exists_eval_ne (g := Q j) (by rw [hQ]; positivity) (by
    rw [hQ]
    calc 17 ^ n ≤ 17 ^ 38 := Nat.pow_le_pow_right (by decide) (by omega)
      _ < q := by decide +kernel) c
  refine ⟨u, ?_⟩
  have h3 := congrFun (q2 u) j
  rw [varWord_eval] at h3
  rw [h3] at hu
  exact hu

/-- Free words can be chosen so that word `j` is not the negated constant of round `n`. -/
theorem free_choice (i : Fin 7) (inputs : Vector (FpVar Fq) (i.val + 2)) (hv : ∀ j : Fin (i.val + 2), j ≠ 0 → inputs[j].isVar = true)
    {n : Nat} (hn : n < 39) {j : Fin (i.val + 2)} (hn0 : n = 0 → inputs[j].isVar = true) :
    ∃ x : Fin (i.val + 2) → Fq, (∀ (j : Fin (i.val + 2)) (c : Fq), inputs[j] = .constant c → x j = c) ∧
      foldRounds ((shippedParams i).mds.toM rfl) (arcAt i) 0 ((fullFlags 4 31).take n) x j + arcAt i n j ≠ 0 := by
  have hcon : ∀ (y : Fin (i.val + 2) → Fq) (a : Fin (i.val + 2)) (u : Fq), inputs[a].isVar = true →
      (∀ (j : Fin (i.val + 2)) (c : Fq), inputs[j] = .constant c → y j = c) →
      ∀ (j : Fin (i.val + 2)) (c : Fq), inputs[j] = .constant c → Function.update y a u j = c := by
    intro y a u ha hy j c hj
    rw [Function.update_of_ne, hy j c hj]
    rintro rfl
    rw [hj] at ha
    cases ha
  have h0 : ∀ (j : Fin (i.val + 2)) (c : Fq), inputs[j] = .constant c → (fun j : Fin (i.val + 2) => inputs[j].eval fun _ => (0 : Fq)) j = c := by
    intro j c hj
    dsimp only
    rw [hj]; rfl
  rcases Nat.eq_zero_or_pos n with rfl | hpos
  · refine ⟨_, hcon _ j (1 - arcAt i 0 j) (hn0 rfl) h0, ?_⟩
    rw [List.take_zero, foldRounds_nil, Function.update_self, sub_add_cancel]
    exact one_ne_zero
  · obtain ⟨u, hu⟩ := word_ne i (fun j => inputs[j].eval fun _ => (0 : Fq)) n hpos hn j (-arcAt i n j)
    exact ⟨_, hcon _ _ u (hv ⟨1, by omega⟩ fun h => by simpa using congrArg Fin.val h) h0, fun h => hu (eq_neg_of_add_eq_zero_left h)⟩

/-- **C112**: leave any one constraint out of the circuit of a hash with variable message words. Then the inputs can be
chosen so that some assignment satisfies all the others and gives the returned variable a value that is not the native
hash of the inputs. -/
theorem C112_no_row_superfluous (i : Fin 7) (inputs : Vector (FpVar Fq) (i.val + 2))
    (hv : ∀ j : Fin (i.val + 2), j ≠ 0 → inputs[j].isVar = true) {cs cs' : CS Fq} {out : FpVar Fq} (hw : WellFormed cs)
    (hk : ∀ j : Fin (i.val + 2), inputs[j].Known cs) (hfree : FreeWords cs inputs)
    (h : R1cs.nTo1FixedHash (shippedParams i) inputs cs = .ok (out, cs')) (k : Nat) (hk1 : cs.constraints.length ≤ k)
    (hk2 : k < cs'.constraints.length) :
    ∃ (τ : R1cs.Variable → Fq) (d : Fq) (inst' : _), SatisfiesBut k τ cs' ∧
      (Instance.new (shippedParams i)).nTo1FixedHash (inputs.map (FpVar.eval τ)) = .ok (d, inst') ∧ out.eval τ ≠ d := by
  obtain ⟨n, j, b, hn, -, hn0, hf, -⟩ := hash_fault i inputs hv h hk1 hk2
  obtain ⟨x, hx, hne⟩ := free_choice i inputs hv hn hn0
  obtain ⟨σ, hσ, hσx⟩ := hfree x hx
  have hin : inWords σ inputs = x := funext hσx
  obtain ⟨d, inst', hd⟩ := native_value i (inputs.map (FpVar.eval σ))
  obtain ⟨τ, t1, t2, t3⟩ := hash_fault_at hw hk (nTo1FixedHash_grows _ _ _ hk _ h).1 hk1 hk2 hσ (hf _ (by rw [hin]; exact hne) d)
  refine ⟨τ, d, inst', t1, ?_, t3⟩
  rw [← hd]
  congr 1
  ext a ha
  simp only [Vector.getElem_map]
  exact (FpVar.eval_agreeOn t2 (hk ⟨a, ha⟩)).symm

/-- **C112**, for the inputs at hand: whatever assignment satisfies the circuit, a constraint whose product it makes
nonzero, once left out, lets another assignment with the same inputs have another digest. -/
theorem C112_each_row (i : Fin 7) (inputs : Vector (FpVar Fq) (i.val + 2))
    (hv : ∀ j : Fin (i.val + 2), j ≠ 0 → inputs[j].isVar = true) {cs cs' : CS Fq} {out : FpVar Fq} (hw : WellFormed cs)
    (hk : ∀ j : Fin (i.val + 2), inputs[j].Known cs)
    (h : R1cs.nTo1FixedHash (shippedParams i) inputs cs = .ok (out, cs')) {σ : R1cs.Variable → Fq} (hσ : Satisfies σ cs')
    {k : Nat} {con : LC Fq × LC Fq × LC Fq} (hk1 : cs.constraints.length ≤ k) (hcon : cs'.constraints[k]? = some con)
    (hne : LC.eval σ con.2.2 ≠ 0) :
    ∃ τ : R1cs.Variable → Fq, SatisfiesBut k τ cs' ∧ (∀ v : R1cs.Variable, v.Known cs → τ v = σ v) ∧ out.eval τ ≠ out.eval σ := by
  have hg := nTo1FixedHash_grows (shippedParams i) inputs cs hk _ h
  have hk2 : k < cs'.constraints.length := (List.getElem?_eq_some_iff.1 hcon).1
  obtain ⟨n, j, b, hn, -, -, hf, hz⟩ := hash_fault i inputs hv h hk1 hk2
  have hrow := hg.1.row hk1 hcon
  rw [hrow] at hne
  have hne' : σ (.witness (cs.numWitness + (k - cs.constraints.length))) ≠ 0 := by simpa [LC.eval] using hne
  obtain ⟨τ, t1, t2, t3⟩ := hash_fault_at hw hk hg.1 hk1 hk2 (hg.1.satisfies hσ) (hf _ ((hz σ hσ).1 hne') (out.eval σ))
  exact ⟨τ, t1, fun v hv => (t2 v hv).symm, t3⟩

/-- Of free words, the hypothesis of `C112_each_row` is met for every constraint of the hash. -/
theorem row_nonzero (i : Fin 7) (inputs : Vector (FpVar Fq) (i.val + 2))
    (hv : ∀ j : Fin (i.val + 2), j ≠ 0 → inputs[j].isVar = true) {cs cs' : CS Fq} {out : FpVar Fq} (hw : WellFormed cs)
    (hk : ∀ j : Fin (i.val + 2), inputs[j].Known cs) (hfree : FreeWords cs inputs)
    (h : R1cs.nTo1FixedHash (shippedParams i) inputs cs = .ok (out, cs')) {k : Nat} {con : LC Fq × LC Fq × LC Fq}
    (hk1 : cs.constraints.length ≤ k) (hcon : cs'.constraints[k]? = some con) :
    ∃ σ : R1cs.Variable → Fq, Satisfies σ cs' ∧ LC.eval σ con.2.2 ≠ 0 := by
  have hg := nTo1FixedHash_grows (shippedParams i) inputs cs hk _ h
  have hk2 : k < cs'.constraints.length := (List.getElem?_eq_some_iff.1 hcon).1
  obtain ⟨n, j, b, hn, -, hn0, -, hz⟩ := hash_fault i inputs hv h hk1 hk2
  obtain ⟨x, hx, hne⟩ := free_choice i inputs hv hn hn0
  obtain ⟨σ, hσ, hσx⟩ := hfree x hx
  obtain ⟨τ, t1, t2⟩ := hg.1.extend hw hσ
  have hin : inWords τ inputs = x := by
    funext a
    rw [← hσx a]
    exact (FpVar.eval_agreeOn (fun v hv => (t2 v (Or.inl hv)).symm) (hk a)).symm
  refine ⟨τ, t1, ?_⟩
  rw [hg.1.row hk1 hcon]
  have := (hz τ t1).2 (by rw [hin]; exact hne)
  simpa [LC.eval] using this

/-! ### A case: message words freshly allocated, the domain separator a constant -/

/-- A constant, then witnesses `0, 1, …` -/
def freshWords (i : Fin 7) (ds : Fq) : Vector (FpVar Fq) (i.val + 2) :=
  Vector.ofFn fun j => if j = 0 then .constant ds else .var ⟨none, [(1, .witness (j.val - 1))]⟩

theorem freshWords_get (i : Fin 7) (ds : Fq) (j : Fin (i.val + 2)) :
    (freshWords i ds)[j] = if j = 0 then .constant ds else .var ⟨none, [(1, .witness (j.val - 1))]⟩ := by
  simp [freshWords]

theorem freshWords_free (i : Fin 7) (ds : Fq) : FreeWords ⟨true, 1, i.val + 1, [1], [], []⟩ (freshWords i ds) := by
  intro x hx
  refine ⟨fun v => match v with
    | .one => 1
    | .input _ => 0
    | .witness a => if h : a + 1 < i.val + 2 then x ⟨a + 1, h⟩ else 0, ⟨rfl, fun _ h => absurd h List.not_mem_nil⟩, fun j => ?_⟩
  rw [freshWords_get]
  by_cases h0 : j = 0
  · subst h0
    rw [if_pos rfl]
    exact (hx 0 ds (by rw [freshWords_get, if_pos rfl])).symm
  · have h1 : j.val ≠ 0 := fun h => h0 (Fin.ext h)
    rw [if_neg h0]
    have h2 : j.val - 1 + 1 < i.val + 2 := by omega
    have h3 : (⟨j.val - 1 + 1, h2⟩ : Fin (i.val + 2)) = j := Fin.ext (by show j.val - 1 + 1 = j.val; omega)
    simp only [FpVar.eval, LC.eval, List.map_cons, List.map_nil, List.sum_cons, List.sum_nil, add_zero, one_mul, dif_pos h2, h3]

/-- The hypotheses of C112 are met, and there are constraints to leave out. -/
example (i : Fin 7) (ds : Fq) : ∃ out cs', (∀ j : Fin (i.val + 2), j ≠ 0 → (freshWords i ds)[j].isVar = true) ∧
    WellFormed (⟨true, 1, i.val + 1, [1], [], []⟩ : CS Fq) ∧
    (∀ j : Fin (i.val + 2), (freshWords i ds)[j].Known ⟨true, 1, i.val + 1, [1], [], []⟩) ∧
    FreeWords ⟨true, 1, i.val + 1, [1], [], []⟩ (freshWords i ds) ∧
    R1cs.nTo1FixedHash (shippedParams i) (freshWords i ds) ⟨true, 1, i.val + 1, [1], [], []⟩ = .ok (out, cs') ∧
    0 < cs'.constraints.length := by
  have hv : ∀ j : Fin (i.val + 2), j ≠ 0 → (freshWords i ds)[j].isVar = true := by
    intro j hj
    rw [freshWords_get, if_neg hj]; rfl
  obtain ⟨out, cs', h⟩ := C11_shipped_setup i (freshWords i ds) ⟨true, 1, i.val + 1, [1], [], []⟩ rfl
    ⟨⟨1, by omega⟩, hv _ fun h => by simpa using congrArg Fin.val h⟩
  refine ⟨out, cs', hv, fun _ h => absurd h List.not_mem_nil, fun j => ?_, freshWords_free i ds, h, ?_⟩
  · rw [freshWords_get]
    split_ifs with h0
    · trivial
    · intro y hy
      rw [List.mem_singleton.1 hy]
      have h1 : j.val ≠ 0 := fun h => h0 (Fin.ext h)
      show j.val - 1 < i.val + 1
      omega
  · rw [(C12_shipped _ _ _ _ _ h).1]
    show 0 < 0 + _
    omega

end Poseidon
