import Verif.Proofs.Hash

/-!
# Properties of the native hash functions (C02 - C08)

`textbook` (Spec/Poseidon.lean) is the specification: R_f full rounds, R_P partial rounds, R_f full
rounds of `x ↦ M · S(x + c)`.
-/

namespace Poseidon

/-- Round constants of a shipped rate: row `r`, word `i` (entry `r * t + i` of the table). -/
def shippedArc (i : Fin 7) : Fin 39 → Fin (i.val + 2) → Fq := fun r j => (shippedParams i).arc.toM rfl r j

/-- The shipped permutation according to the specification: exponent 17, Cauchy MDS matrix, 4 + 31 + 4
rounds. -/
def spec377 (i : Fin 7) (x : Fin (i.val + 2) → Fq) : Option (Fin (i.val + 2) → Fq) :=
  textbook (.exponent 17) (cauchyMds Fq (i.val + 2)) 4 31 (shippedArc i) x

theorem shipped_mds_cauchy (i : Fin 7) : (shippedParams i).mds.toM rfl = cauchyMds Fq (i.val + 2) := by
  ext a b
  rw [cauchyMds, Matrix.of_apply]
  exact eq_inv_of_mul_eq_one_left ((shippedAll i).2.2 a b)

/-- The permutation of `spec377` as a total function. -/
def perm377 (i : Fin 7) : (Fin (i.val + 2) → Fq) → (Fin (i.val + 2) → Fq) :=
  permE 17 (cauchyMds Fq (i.val + 2)) 4 31 (shippedArc i)

theorem spec377_eq (i : Fin 7) (x : Fin (i.val + 2) → Fq) : spec377 i x = some (perm377 i x) :=
  textbook_exponent _ _ _ _ _ _

theorem textbook_congr {F : Type _} [Field F] [DecidableEq F] {t : Nat} {a a' : Alpha}
    {M M' : Matrix (Fin t) (Fin t) F} {rf rf' rp rp' : Nat} {C : Fin (rf + rp + rf) → Fin t → F}
    {C' : Fin (rf' + rp' + rf') → Fin t → F} (ha : a = a') (hM : M = M') (hrf : rf = rf') (hrp : rp = rp')
    (hC : ∀ (r : Nat) h h', C ⟨r, h⟩ = C' ⟨r, h'⟩) (x : Fin t → F) :
    textbook a M rf rp C x = textbook a' M' rf' rp' C' x := by
  subst ha hM hrf hrp
  have : C = C' := by funext r; exact hC r.val r.isLt r.isLt
  rw [this]

theorem shipped_textbook (i : Fin 7)
    (hle : (shippedParams i).rounds.rF / 2 + (shippedParams i).rounds.rP + (shippedParams i).rounds.rF / 2 ≤ 39)
    (x : Fin (i.val + 2) → Fq) :
    textbook (shippedParams i).alpha ((shippedParams i).mds.toM rfl) ((shippedParams i).rounds.rF / 2)
      (shippedParams i).rounds.rP
      (fun r => (shippedParams i).arc.toM rfl ⟨r.val, lt_of_lt_of_le r.isLt hle⟩) x = some (perm377 i x) := by
  rw [← spec377_eq, spec377]
  apply textbook_congr (shipped_alpha i) (shipped_mds_cauchy i)
  · simp [shipped_rounds]
  · simp [shipped_rounds]
  · intro r h h'; rfl

/-- C02, for an `Instance` with any left-over state: the optimized code returns word 1 of the textbook
permutation and leaves the permuted state in the instance. -/
theorem C02_instance (i : Fin 7) (s : Vector Fq (i.val + 2)) (x : Fin (i.val + 2) → Fq) :
    ∃ y, spec377 i x = some y ∧
      Instance.nTo1FixedHash ⟨shippedParams i, s⟩ (Vector.ofFn x) = .ok (y 1, ⟨shippedParams i, Vector.ofFn y⟩) := by
  refine ⟨perm377 i x, spec377_eq i x, ?_⟩
  refine (nTo1FixedHash_eq _ _ _ (shipped_consistent i) (by omega) s x).trans ?_
  refine (congrArg (fun o => (reported o).map _) (shipped_textbook i (shipped_consistent i).rows_le x)).trans ?_
  refine congrArg Except.ok (Prod.ext ?_ rfl)
  exact (Vector.getElem_ofFn _).trans rfl

/-- C02, unoptimized entry point: the same digest and state. -/
theorem C02_unoptimized (i : Fin 7) (s : Vector Fq (i.val + 2)) (x : Fin (i.val + 2) → Fq) :
    ∃ y, spec377 i x = some y ∧
      Instance.unoptimizedNTo1FixedHash ⟨shippedParams i, s⟩ (Vector.ofFn x) =
        .ok (y 1, ⟨shippedParams i, Vector.ofFn y⟩) := by
  refine ⟨perm377 i x, spec377_eq i x, ?_⟩
  rw [Instance.unoptimizedNTo1FixedHash, setState_eq, ok_bind]
  dsimp only
  rw [(unoptimizedPermute_eq (shippedParams i) (by omega) rfl rfl (by simp [shipped_rounds]) x).trans
    (congrArg reported (shipped_textbook i (shipped_consistent i).rows_le x)), reported, ok_bind, aget_lt _ (by omega), ok_bind]
  show Except.ok _ = _
  congr 2
  rw [Vector.getElem_ofFn]
  rfl

/-- C02/C03/C08 for `hash_1`: never panics, returns word 1 of the textbook permutation of
`[ds, v_1, .., v_1]`. -/
theorem C02_hash_1 (ds : Fq) (v : Fq) :
    ∃ y, spec377 0 ![ds, v] = some y ∧ hash1 ds v = .ok (y 1) := by
  obtain ⟨y, h1, h2⟩ := C02_instance 0 (Vector.replicate _ 0) ![ds, v]
  refine ⟨y, h1, ?_⟩
  have h3 : Instance.nTo1FixedHash (Instance.new rate1Params) #v[ds, v] =
      .ok (y 1, ⟨rate1Params, Vector.ofFn y⟩) := h2
  rw [hash1, h3]
  rfl

/-- C02/C03/C08 for `hash_2`: never panics, returns word 1 of the textbook permutation of
`[ds, v_1, .., v_2]`. -/
theorem C02_hash_2 (ds : Fq) (v : Fq × Fq) :
    ∃ y, spec377 1 ![ds, v.1, v.2] = some y ∧ hash2 ds v = .ok (y 1) := by
  obtain ⟨y, h1, h2⟩ := C02_instance 1 (Vector.replicate _ 0) ![ds, v.1, v.2]
  refine ⟨y, h1, ?_⟩
  have h3 : Instance.nTo1FixedHash (Instance.new rate2Params) #v[ds, v.1, v.2] =
      .ok (y 1, ⟨rate2Params, Vector.ofFn y⟩) := h2
  rw [hash2, h3]
  rfl

/-- C02/C03/C08 for `hash_3`: never panics, returns word 1 of the textbook permutation of
`[ds, v_1, .., v_3]`. -/
theorem C02_hash_3 (ds : Fq) (v : Fq × Fq × Fq) :
    ∃ y, spec377 2 ![ds, v.1, v.2.1, v.2.2] = some y ∧ hash3 ds v = .ok (y 1) := by
  obtain ⟨y, h1, h2⟩ := C02_instance 2 (Vector.replicate _ 0) ![ds, v.1, v.2.1, v.2.2]
  refine ⟨y, h1, ?_⟩
  have h3 : Instance.nTo1FixedHash (Instance.new rate3Params) #v[ds, v.1, v.2.1, v.2.2] =
      .ok (y 1, ⟨rate3Params, Vector.ofFn y⟩) := h2
  rw [hash3, h3]
  rfl

/-- C02/C03/C08 for `hash_4`: never panics, returns word 1 of the textbook permutation of
`[ds, v_1, .., v_4]`. -/
theorem C02_hash_4 (ds : Fq) (v : Fq × Fq × Fq × Fq) :
    ∃ y, spec377 3 ![ds, v.1, v.2.1, v.2.2.1, v.2.2.2] = some y ∧ hash4 ds v = .ok (y 1) := by
  obtain ⟨y, h1, h2⟩ := C02_instance 3 (Vector.replicate _ 0) ![ds, v.1, v.2.1, v.2.2.1, v.2.2.2]
  refine ⟨y, h1, ?_⟩
  have h3 : Instance.nTo1FixedHash (Instance.new rate4Params) #v[ds, v.1, v.2.1, v.2.2.1, v.2.2.2] =
      .ok (y 1, ⟨rate4Params, Vector.ofFn y⟩) := h2
  rw [hash4, h3]
  rfl

/-- C02/C03/C08 for `hash_5`: never panics, returns word 1 of the textbook permutation of
`[ds, v_1, .., v_5]`. -/
theorem C02_hash_5 (ds : Fq) (v : Fq × Fq × Fq × Fq × Fq) :
    ∃ y, spec377 4 ![ds, v.1, v.2.1, v.2.2.1, v.2.2.2.1, v.2.2.2.2] = some y ∧ hash5 ds v = .ok (y 1) := by
  obtain ⟨y, h1, h2⟩ := C02_instance 4 (Vector.replicate _ 0) ![ds, v.1, v.2.1, v.2.2.1, v.2.2.2.1, v.2.2.2.2]
  refine ⟨y, h1, ?_⟩
  have h3 : Instance.nTo1FixedHash (Instance.new rate5Params) #v[ds, v.1, v.2.1, v.2.2.1, v.2.2.2.1, v.2.2.2.2] =
      .ok (y 1, ⟨rate5Params, Vector.ofFn y⟩) := h2
  rw [hash5, h3]
  rfl

/-- C02/C03/C08 for `hash_6`: never panics, returns word 1 of the textbook permutation of
`[ds, v_1, .., v_6]`. -/
theorem C02_hash_6 (ds : Fq) (v : Fq × Fq × Fq × Fq × Fq × Fq) :
    ∃ y, spec377 5 ![ds, v.1, v.2.1, v.2.2.1, v.2.2.2.1, v.2.2.2.2.1, v.2.2.2.2.2] = some y ∧ hash6 ds v = .ok (y 1) := by
  obtain ⟨y, h1, h2⟩ := C02_instance 5 (Vector.replicate _ 0) ![ds, v.1, v.2.1, v.2.2.1, v.2.2.2.1, v.2.2.2.2.1, v.2.2.2.2.2]
  refine ⟨y, h1, ?_⟩
  have h3 : Instance.nTo1FixedHash (Instance.new rate6Params) #v[ds, v.1, v.2.1, v.2.2.1, v.2.2.2.1, v.2.2.2.2.1, v.2.2.2.2.2] =
      .ok (y 1, ⟨rate6Params, Vector.ofFn y⟩) := h2
  rw [hash6, h3]
  rfl

/-- C02/C03/C08 for `hash_7`: never panics, returns word 1 of the textbook permutation of
`[ds, v_1, .., v_7]`. -/
theorem C02_hash_7 (ds : Fq) (v : Fq × Fq × Fq × Fq × Fq × Fq × Fq) :
    ∃ y, spec377 6 ![ds, v.1, v.2.1, v.2.2.1, v.2.2.2.1, v.2.2.2.2.1, v.2.2.2.2.2.1, v.2.2.2.2.2.2] = some y ∧ hash7 ds v = .ok (y 1) := by
  obtain ⟨y, h1, h2⟩ := C02_instance 6 (Vector.replicate _ 0) ![ds, v.1, v.2.1, v.2.2.1, v.2.2.2.1, v.2.2.2.2.1, v.2.2.2.2.2.1, v.2.2.2.2.2.2]
  refine ⟨y, h1, ?_⟩
  have h3 : Instance.nTo1FixedHash (Instance.new rate7Params) #v[ds, v.1, v.2.1, v.2.2.1, v.2.2.2.1, v.2.2.2.2.1, v.2.2.2.2.2.1, v.2.2.2.2.2.2] =
      .ok (y 1, ⟨rate7Params, Vector.ofFn y⟩) := h2
  rw [hash7, h3]
  rfl

/-! ## C03: no panic -/

/-- C03: `hash_1` returns a field element on every input. -/
theorem C03_hash_1_total (ds : Fq) (v : Fq) : ∃ d, hash1 ds v = .ok d :=
  let ⟨y, _, h⟩ := C02_hash_1 ds v
  ⟨y 1, h⟩

/-- C03: `hash_2` returns a field element on every input. -/
theorem C03_hash_2_total (ds : Fq) (v : Fq × Fq) : ∃ d, hash2 ds v = .ok d :=
  let ⟨y, _, h⟩ := C02_hash_2 ds v
  ⟨y 1, h⟩

/-- C03: `hash_3` returns a field element on every input. -/
theorem C03_hash_3_total (ds : Fq) (v : Fq × Fq × Fq) : ∃ d, hash3 ds v = .ok d :=
  let ⟨y, _, h⟩ := C02_hash_3 ds v
  ⟨y 1, h⟩

/-- C03: `hash_4` returns a field element on every input. -/
theorem C03_hash_4_total (ds : Fq) (v : Fq × Fq × Fq × Fq) : ∃ d, hash4 ds v = .ok d :=
  let ⟨y, _, h⟩ := C02_hash_4 ds v
  ⟨y 1, h⟩

/-- C03: `hash_5` returns a field element on every input. -/
theorem C03_hash_5_total (ds : Fq) (v : Fq × Fq × Fq × Fq × Fq) : ∃ d, hash5 ds v = .ok d :=
  let ⟨y, _, h⟩ := C02_hash_5 ds v
  ⟨y 1, h⟩

/-- C03: `hash_6` returns a field element on every input. -/
theorem C03_hash_6_total (ds : Fq) (v : Fq × Fq × Fq × Fq × Fq × Fq) : ∃ d, hash6 ds v = .ok d :=
  let ⟨y, _, h⟩ := C02_hash_6 ds v
  ⟨y 1, h⟩

/-- C03: `hash_7` returns a field element on every input. -/
theorem C03_hash_7_total (ds : Fq) (v : Fq × Fq × Fq × Fq × Fq × Fq × Fq) : ∃ d, hash7 ds v = .ok d :=
  let ⟨y, _, h⟩ := C02_hash_7 ds v
  ⟨y 1, h⟩

/-! ## C04: bijectivity -/

theorem card_Fq : Fintype.card Fq = q := ZMod.card q

theorem coprime17 : Nat.Coprime 17 (q - 1) := by
  unfold Nat.Coprime; decide +kernel

theorem pow17_bijective : Function.Bijective fun x : Fq => x ^ 17 :=
  pow_bijective (by rw [card_Fq]; exact coprime17) (by omega)

theorem perm377_bijective (i : Fin 7) : Function.Bijective (perm377 i) := by
  have h := (shippedAll i).1.mInverse
  rw [shipped_mds_cauchy] at h
  exact permE_bijective h pow17_bijective _ _ _

theorem nTo1_perm377 (i : Fin 7) (s : Vector Fq (i.val + 2)) (x : Fin (i.val + 2) → Fq) :
    Instance.nTo1FixedHash ⟨shippedParams i, s⟩ (Vector.ofFn x) =
      .ok (perm377 i x 1, ⟨shippedParams i, Vector.ofFn (perm377 i x)⟩) := by
  obtain ⟨y, h1, h2⟩ := C02_instance i s x
  rw [spec377_eq] at h1
  injection h1 with h1
  rw [h2, h1]

/-- C04: hashing the words `x` on any instance of a shipped rate leaves `f x` in `output_words`, for
one bijection `f` of the state space. -/
theorem C04_permutation_bijective (i : Fin 7) :
    ∃ f : (Fin (i.val + 2) → Fq) → (Fin (i.val + 2) → Fq), Function.Bijective f ∧
      ∀ (s : Vector Fq (i.val + 2)) (x : Fin (i.val + 2) → Fq), ∃ d inst',
        Instance.nTo1FixedHash ⟨shippedParams i, s⟩ (Vector.ofFn x) = .ok (d, inst') ∧
        inst'.outputWords = Vector.ofFn (f x) :=
  ⟨perm377 i, perm377_bijective i, fun s x => ⟨_, _, nTo1_perm377 i s x, rfl⟩⟩

/-- C04, pairwise form: two inputs leave the same output words iff they are equal. -/
theorem C04_no_state_collision (i : Fin 7) (s s' x x' : Vector Fq (i.val + 2)) {d d' : Fq}
    {a b} (h : Instance.nTo1FixedHash ⟨shippedParams i, s⟩ x = .ok (d, a))
    (h' : Instance.nTo1FixedHash ⟨shippedParams i, s'⟩ x' = .ok (d', b))
    (e : a.outputWords = b.outputWords) : x = x' := by
  have hx : x = Vector.ofFn fun j => x[j] := by ext; simp
  have hx' : x' = Vector.ofFn fun j => x'[j] := by ext; simp
  rw [hx, nTo1_perm377] at h
  rw [hx', nTo1_perm377] at h'
  cases h; cases h'
  have e' := congrArg (fun v : Vector Fq (i.val + 2) => fun j : Fin (i.val + 2) => v[j]) e
  have e2 : perm377 i (fun j => x[j]) = perm377 i (fun j => x'[j]) := by
    funext j
    have := congrFun e' j
    simpa [Instance.outputWords] using this
  have e3 := (perm377_bijective i).1 e2
  rw [hx, hx', e3]

/-! ## C05: balanced digests -/

theorem card_fiber {t : Nat} (j : Fin (t + 1)) (y : Fq) :
    Nat.card {z : Fin (t + 1) → Fq // z j = y} = q ^ t := by
  have e : {z : Fin (t + 1) → Fq // z j = y} ≃ (Fin t → Fq) :=
    { toFun := fun z i => z.1 (j.succAbove i)
      invFun := fun w => ⟨j.insertNth y w, by simp⟩
      left_inv := by
        rintro ⟨z, rfl⟩
        apply Subtype.ext
        exact j.insertNth_self_removeNth z
      right_inv := by intro w; funext i; simp }
  rw [Nat.card_congr e, Nat.card_eq_fintype_card, Fintype.card_fun, card_Fq, Fintype.card_fin]

/-- C05: every field element is the digest of exactly `q ^ n` inputs of the rate-`n` instance. -/
theorem C05_balanced (i : Fin 7) (s : Vector Fq (i.val + 2)) (y : Fq) :
    Nat.card {x : Vector Fq (i.val + 2) //
      ∃ inst', Instance.nTo1FixedHash ⟨shippedParams i, s⟩ x = .ok (y, inst')} = q ^ (i.val + 1) := by
  rw [← card_fiber (1 : Fin (i.val + 2)) y]
  apply Nat.card_congr
  refine Equiv.ofBijective (fun x => ⟨perm377 i (fun j => x.1[j]), ?_⟩) ⟨?_, ?_⟩
  · obtain ⟨x, inst', h⟩ := x
    have hx : x = Vector.ofFn fun j => x[j] := by ext; simp
    rw [hx, nTo1_perm377] at h
    cases h
    rfl
  · rintro ⟨x, hx⟩ ⟨x', hx'⟩ h
    have h2 := (perm377_bijective i).1 (congrArg Subtype.val h)
    apply Subtype.ext
    ext j hj
    exact congrFun h2 ⟨j, hj⟩
  · rintro ⟨z, hz⟩
    obtain ⟨x, hx⟩ := (perm377_bijective i).2 z
    refine ⟨⟨Vector.ofFn x, ?_⟩, ?_⟩
    · exact ⟨_, by rw [nTo1_perm377, hx, hz]⟩
    · apply Subtype.ext
      simp [hx]

theorem digest_iff {α β : Type} (r : R (α × β)) (y : α) :
    (do let (d, _) ← r; return d) = (.ok y : R α) ↔ ∃ i, r = .ok (y, i) := by
  cases r with
  | error e => simp only [error_bind, reduceCtorEq, exists_false]
  | ok p =>
    obtain ⟨d, i⟩ := p
    constructor
    · intro h
      have : d = y := by injection h
      exact ⟨i, by rw [this]⟩
    · rintro ⟨i', h⟩
      injection h with h
      injection h with h1 h2
      rw [h1]; rfl

/-- C05 for `hash_1`: every field element is the digest of exactly `q ^ 1` arguments. -/
theorem C05_hash_1 (y : Fq) : Nat.card {x : Fq × Fq // hash1 x.1 x.2 = .ok y} = q ^ 1 := by
  let e : (Fq × Fq) ≃ Vector Fq 2 :=
    { toFun := fun x => #v[x.1, x.2]
      invFun := fun f => (f[0], f[1])
      left_inv := fun _ => rfl
      right_inv := by
        intro f
        apply Vector.ext
        intro i hi
        interval_cases i <;> rfl }
  exact (Nat.card_congr (e.subtypeEquiv fun x => digest_iff _ y)).trans
    (C05_balanced 0 (Vector.replicate _ 0) y)

/-- C05 for `hash_2`: every field element is the digest of exactly `q ^ 2` arguments. -/
theorem C05_hash_2 (y : Fq) : Nat.card {x : Fq × Fq × Fq // hash2 x.1 x.2 = .ok y} = q ^ 2 := by
  let e : (Fq × Fq × Fq) ≃ Vector Fq 3 :=
    { toFun := fun x => #v[x.1, x.2.1, x.2.2]
      invFun := fun f => (f[0], f[1], f[2])
      left_inv := fun _ => rfl
      right_inv := by
        intro f
        apply Vector.ext
        intro i hi
        interval_cases i <;> rfl }
  exact (Nat.card_congr (e.subtypeEquiv fun x => digest_iff _ y)).trans
    (C05_balanced 1 (Vector.replicate _ 0) y)

/-- C05 for `hash_3`: every field element is the digest of exactly `q ^ 3` arguments. -/
theorem C05_hash_3 (y : Fq) : Nat.card {x : Fq × Fq × Fq × Fq // hash3 x.1 x.2 = .ok y} = q ^ 3 := by
  let e : (Fq × Fq × Fq × Fq) ≃ Vector Fq 4 :=
    { toFun := fun x => #v[x.1, x.2.1, x.2.2.1, x.2.2.2]
      invFun := fun f => (f[0], f[1], f[2], f[3])
      left_inv := fun _ => rfl
      right_inv := by
        intro f
        apply Vector.ext
        intro i hi
        interval_cases i <;> rfl }
  exact (Nat.card_congr (e.subtypeEquiv fun x => digest_iff _ y)).trans
    (C05_balanced 2 (Vector.replicate _ 0) y)

/-- C05 for `hash_4`: every field element is the digest of exactly `q ^ 4` arguments. -/
theorem C05_hash_4 (y : Fq) : Nat.card {x : Fq × Fq × Fq × Fq × Fq // hash4 x.1 x.2 = .ok y} = q ^ 4 := by
  let e : (Fq × Fq × Fq × Fq × Fq) ≃ Vector Fq 5 :=
    { toFun := fun x => #v[x.1, x.2.1, x.2.2.1, x.2.2.2.1, x.2.2.2.2]
      invFun := fun f => (f[0], f[1], f[2], f[3], f[4])
      left_inv := fun _ => rfl
      right_inv := by
        intro f
        apply Vector.ext
        intro i hi
        interval_cases i <;> rfl }
  exact (Nat.card_congr (e.subtypeEquiv fun x => digest_iff _ y)).trans
    (C05_balanced 3 (Vector.replicate _ 0) y)

/-- C05 for `hash_5`: every field element is the digest of exactly `q ^ 5` arguments. -/
theorem C05_hash_5 (y : Fq) : Nat.card {x : Fq × Fq × Fq × Fq × Fq × Fq // hash5 x.1 x.2 = .ok y} = q ^ 5 := by
  let e : (Fq × Fq × Fq × Fq × Fq × Fq) ≃ Vector Fq 6 :=
    { toFun := fun x => #v[x.1, x.2.1, x.2.2.1, x.2.2.2.1, x.2.2.2.2.1, x.2.2.2.2.2]
      invFun := fun f => (f[0], f[1], f[2], f[3], f[4], f[5])
      left_inv := fun _ => rfl
      right_inv := by
        intro f
        apply Vector.ext
        intro i hi
        interval_cases i <;> rfl }
  exact (Nat.card_congr (e.subtypeEquiv fun x => digest_iff _ y)).trans
    (C05_balanced 4 (Vector.replicate _ 0) y)

/-- C05 for `hash_6`: every field element is the digest of exactly `q ^ 6` arguments. -/
theorem C05_hash_6 (y : Fq) : Nat.card {x : Fq × Fq × Fq × Fq × Fq × Fq × Fq // hash6 x.1 x.2 = .ok y} = q ^ 6 := by
  let e : (Fq × Fq × Fq × Fq × Fq × Fq × Fq) ≃ Vector Fq 7 :=
    { toFun := fun x => #v[x.1, x.2.1, x.2.2.1, x.2.2.2.1, x.2.2.2.2.1, x.2.2.2.2.2.1, x.2.2.2.2.2.2]
      invFun := fun f => (f[0], f[1], f[2], f[3], f[4], f[5], f[6])
      left_inv := fun _ => rfl
      right_inv := by
        intro f
        apply Vector.ext
        intro i hi
        interval_cases i <;> rfl }
  exact (Nat.card_congr (e.subtypeEquiv fun x => digest_iff _ y)).trans
    (C05_balanced 5 (Vector.replicate _ 0) y)

/-- C05 for `hash_7`: every field element is the digest of exactly `q ^ 7` arguments. -/
theorem C05_hash_7 (y : Fq) : Nat.card {x : Fq × Fq × Fq × Fq × Fq × Fq × Fq × Fq // hash7 x.1 x.2 = .ok y} = q ^ 7 := by
  let e : (Fq × Fq × Fq × Fq × Fq × Fq × Fq × Fq) ≃ Vector Fq 8 :=
    { toFun := fun x => #v[x.1, x.2.1, x.2.2.1, x.2.2.2.1, x.2.2.2.2.1, x.2.2.2.2.2.1, x.2.2.2.2.2.2.1, x.2.2.2.2.2.2.2]
      invFun := fun f => (f[0], f[1], f[2], f[3], f[4], f[5], f[6], f[7])
      left_inv := fun _ => rfl
      right_inv := by
        intro f
        apply Vector.ext
        intro i hi
        interval_cases i <;> rfl }
  exact (Nat.card_congr (e.subtypeEquiv fun x => digest_iff _ y)).trans
    (C05_balanced 6 (Vector.replicate _ 0) y)

/-! ## Non-vacuity -/

/-- The specification is not a constant: `hash_1` separates two inputs somewhere (immediate from C04),
here the state after hashing `[0, 1]` differs from the one after hashing `[0, 2]`. -/
example : spec377 0 ![0, 1] ≠ spec377 0 ![0, 2] := by
  rw [spec377_eq, spec377_eq]
  intro h
  have h2 := congrFun ((perm377_bijective 0).1 (Option.some.inj h)) 1
  have h3 : (1 : Fq) = 2 := h2
  have : ((1 : Nat) : Fq) = ((2 : Nat) : Fq) := by simpa using h3
  have := cast_inj_lt (by decide +kernel) (by decide +kernel) this
  omega

end Poseidon
