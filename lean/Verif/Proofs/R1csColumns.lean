import Verif.Proofs.R1csRows

/-! # Which variables occur in the rows of the circuit hash -/

set_option linter.unusedSectionVars false

namespace Poseidon.R1cs

variable {F : Type} [Field F] [DecidableEq F]
variable {t tm1 nmds nhat rows cols nround npart : Nat}

/-- One at `v`. -/
def ind (v x : Variable) : F := if x = v then 1 else 0

/-- Coefficient of a variable in a linear combination. -/
def LC.coeff (v : Variable) (l : LC F) : F := LC.eval (ind v) l

/-- Coefficient of a variable in a circuit variable. -/
def FpVar.coeff (v : Variable) (x : FpVar F) : F := x.hev (ind v)

theorem ind_one {v : Variable} (h : v ≠ .one) : (ind v .one : F) = 0 := if_neg (Ne.symm h)

/-- The output of the S-box number `k`, if the first witness of the first S-box is `n`. -/
def boxOut (n k : Nat) : Variable := .witness (n + 5 * k + 4)

theorem boxOut_inj {n k l : Nat} : boxOut n k = boxOut n l ↔ k = l := by
  simp only [boxOut, Variable.witness.injEq]
  omega

/-- What is known of the state `s` after the S-boxes on `as`, started in the state `s0` with `n0` witnesses. -/
structure Cols (s0 : List (FpVar F)) (n0 : Nat) (as : List (LC F)) (s : List (FpVar F)) : Prop where
  never : ∀ v, v ≠ .one → (∀ x ∈ s0, x.coeff v = 0) → (∀ k, k < as.length → v ≠ boxOut n0 k) →
    (∀ a ∈ as, LC.coeff v a = 0) ∧ ∀ x ∈ s, x.coeff v = 0
  present : ∀ k, k < as.length → (∃ a ∈ as, LC.coeff (boxOut n0 k) a ≠ 0) ∨ ∃ h : 0 < s.length, s[0].coeff (boxOut n0 k) ≠ 0

/-- What is known after a full round with the S-boxes on `bs`, which left the state `s`. -/
structure Full (m : Fin t → Fin t → F) (c n : Nat) (bs : List (LC F)) (s : List (FpVar F)) : Prop where
  length : bs.length = t - c
  out : ∀ i (hi : i < s.length) (hi' : i < t) (j : Fin t), c ≤ j.val → s[i].coeff (boxOut n (j.val - c)) = m ⟨i, hi'⟩ j
  other : ∀ v, v ≠ .one → (∀ k, k < bs.length → v ≠ boxOut n k) → ∀ x ∈ s, x.coeff v = 0

theorem boxes_mem {bs : List (LC F)} {xs : List (FpVar F)} {σ : Variable → F} (h : bs.map (LC.eval σ) = xs.map (FpVar.hev σ)) :
    (∀ a ∈ bs, ∃ x ∈ xs, LC.eval σ a = x.hev σ) ∧ ∀ x ∈ xs, ∃ a ∈ bs, LC.eval σ a = x.hev σ := by
  constructor
  · intro a ha
    have : LC.eval σ a ∈ xs.map (FpVar.hev σ) := h ▸ List.mem_map_of_mem ha
    obtain ⟨x, hx, hxa⟩ := List.mem_map.1 this
    exact ⟨x, hx, hxa.symm⟩
  · intro x hx
    have : x.hev σ ∈ bs.map (LC.eval σ) := h ▸ List.mem_map_of_mem hx
    obtain ⟨a, ha, hxa⟩ := List.mem_map.1 this
    exact ⟨a, ha, hxa⟩

/-- One round. -/
theorem round_cols (p : Params F t tm1 nmds nhat rows cols nround npart) (ha : p.alpha = .exponent 17) (ht : 0 < t)
    (hm : nmds = t * t) (h0 : ∀ j, p.mds.toM hm ⟨0, ht⟩ j ≠ 0) (full : Bool) {s0 : List (FpVar F)} {n0 : Nat}
    (hfresh : ∀ i, n0 ≤ i → ∀ x ∈ s0, x.coeff (.witness i) = 0)
    {s : List (FpVar F)} (counter : Nat) {cs0 cs : CS F} {as : List (LC F)} (hn : cs0.numWitness = n0)
    (hb : Boxes as cs0 cs) (hcols : Cols s0 n0 as s)
    (hs : s.length = t) {c : Nat} (hv : ∀ i (hi : i < s.length), s[i].isVar = decide (c ≤ i)) (hf : full = false → c = 0)
    (hc : c = 0 ∨ as = []) :
    Ens (fun r => ∃ bs, Boxes (as ++ bs) cs0 r.2.2 ∧ r.1.length = t ∧ (∀ i (hi : i < r.1.length), r.1[i].isVar = decide (0 ≤ i)) ∧
      Cols s0 n0 (as ++ bs) r.1 ∧ (full = true → Full (p.mds.toM hm) c (n0 + 5 * as.length) bs r.1) ∧
      (∀ j, j < bs.length → ∀ a ∈ as ++ bs, LC.coeff (boxOut n0 (as.length + j)) a = 0) ∧
      (∀ k, k < as.length → ∃ a ∈ as ++ bs, LC.coeff (boxOut n0 k) a ≠ 0) ∧
      ∀ v, v ≠ .one → ∀ x ∈ (if full then s.drop c else s.take 1), x.coeff v ≠ 0 → ∃ a ∈ bs, LC.coeff v a ≠ 0)
      (round p full (s, counter, cs)) := by
  refine (round_rows p ha ht hm full s counter cs hs hv hf).mono ?_
  rintro ⟨s', counter', cs'⟩ ⟨bs, h1, h2, h3, h4⟩
  dsimp only at h1 h2 h3 h4 ⊢
  have hnum : cs.numWitness = n0 + 5 * as.length := by rw [hb.2, hn]
  have hlen : bs.length = (if full then t - c else 1) := by
    have := congrArg List.length (h4 (fun _ => 0) rfl).1
    rw [List.length_map, List.length_map] at this
    rw [this]
    split <;> simp [hs]
    omega
  have hbox : ∀ j, boxOut (n0 + 5 * as.length) j = boxOut n0 (as.length + j) := by
    intro j; simp only [boxOut, Variable.witness.injEq]; ring
  -- the new words
  have hword : ∀ v, v ≠ .one → ∀ i (hi : i < s'.length) (hi' : i < t), s'[i].coeff v = ∑ j : Fin t, p.mds.toM hm ⟨i, hi'⟩ j *
          (if full then (if c ≤ j.val then ind v (boxOut n0 (as.length + (j.val - c))) else 0)
            else if j.val = 0 then ind v (boxOut n0 as.length) else (s[j.val]'(by omega)).coeff v) := by
    intro v hv i hi hi'
    have := (h4 (ind v) (ind_one hv)).2 i hi hi'
    rw [FpVar.coeff, this]
    refine Finset.sum_congr rfl fun j _ => ?_
    congr 1
    rw [← hbox, hnum]
    have e : boxOut n0 as.length = .witness (n0 + 5 * as.length + 4) := rfl
    rw [e]
    rfl
  have hmem : ∀ v, v ≠ .one → (∀ x ∈ s, x.coeff v = 0) → ∀ a ∈ bs, LC.coeff v a = 0 := by
    intro v hv hx a ha
    obtain ⟨x, hx', hxa⟩ := (boxes_mem (h4 (ind v) (ind_one hv)).1).1 a ha
    rw [LC.coeff, hxa]
    refine hx x ?_
    split at hx'
    · exact List.mem_of_mem_drop hx'
    · exact List.mem_of_mem_take hx'
  have hne : ∀ k, boxOut n0 k ≠ .one := fun k h => by cases h
  -- the coefficients of the new outputs in the new words
  have hjc : ∀ j, j < bs.length → j + c < t := by
    intro j hj
    rw [hlen] at hj
    split at hj
    · omega
    · next hff => have := hf (by simpa using hff); omega
  have hnew : ∀ j (hj : j < bs.length) i (hi : i < s'.length) (hi' : i < t),
      s'[i].coeff (boxOut n0 (as.length + j)) = p.mds.toM hm ⟨i, hi'⟩ ⟨j + c, hjc j hj⟩ := by
    intro j hj i hi hi'
    have hjc := hjc j hj
    rw [hword _ (hne _) i hi hi', Finset.sum_eq_single_of_mem ⟨j + c, hjc⟩ (Finset.mem_univ _)]
    · cases full with
      | true =>
        rw [if_pos rfl, if_pos (by simp), ind, if_pos (by simp), mul_one]
      | false =>
        obtain rfl := hf rfl
        simp only [Bool.false_eq_true, if_false] at hlen
        obtain rfl : j = 0 := by omega
        simp [ind]
    · intro l _ hl
      have hl : l.val ≠ j + c := fun h => hl (Fin.ext h)
      cases full with
      | true =>
        rw [if_pos rfl]
        split
        · rw [ind, if_neg (by rw [boxOut_inj]; omega), mul_zero]
        · rw [mul_zero]
      | false =>
        obtain rfl := hf rfl
        simp only [Bool.false_eq_true, if_false] at hlen ⊢
        rw [if_neg (by omega), (hcols.never (boxOut n0 (as.length + j)) (hne _) (hfresh _ (by omega)) (fun k hk => by
          rw [Ne, boxOut_inj]; omega)).2 _ (List.getElem_mem _), mul_zero]
  have hearly : ∀ k, k < as.length → ∃ a ∈ as ++ bs, LC.coeff (boxOut n0 k) a ≠ 0 := by
    intro k hk'
    obtain rfl : c = 0 := by
      rcases hc with h | h
      · exact h
      · rw [h] at hk'; exact absurd hk' (by simp)
    rcases hcols.present k hk' with ⟨a, ha, h⟩ | ⟨h, h'⟩
    · exact ⟨a, List.mem_append_left _ ha, h⟩
    · have h0mem : s[0] ∈ (if full then s.drop 0 else s.take 1) := by
        split
        · rw [List.drop_zero]; exact List.getElem_mem _
        · exact List.mem_take_iff_getElem.2 ⟨0, by omega, rfl⟩
      obtain ⟨a, ha, hxa⟩ := (boxes_mem (h4 (ind (boxOut n0 k)) (ind_one (hne k))).1).2 _ h0mem
      exact ⟨a, List.mem_append_right _ ha, by rw [LC.coeff, hxa]; exact h'⟩
  refine ⟨bs, hb.trans h1, h2, fun i hi => by rw [h3 i hi]; simp, ⟨?_, ?_⟩, ?_, ?_, hearly, ?_⟩
  · -- never
    intro v hv hx hk
    rw [List.length_append] at hk
    obtain ⟨k1, k2⟩ := hcols.never v hv hx fun k hk' => hk k (by omega)
    refine ⟨?_, ?_⟩
    · intro a ha
      rcases List.mem_append.1 ha with ha | ha
      · exact k1 a ha
      · exact hmem v hv k2 a ha
    · intro x hx
      obtain ⟨i, hi, rfl⟩ := List.getElem_of_mem hx
      rw [hword v hv i hi (by omega)]
      refine Finset.sum_eq_zero fun j _ => ?_
      have : (if full = true then (if c ≤ j.val then ind v (boxOut n0 (as.length + (j.val - c))) else 0)
            else if j.val = 0 then ind v (boxOut n0 as.length) else (s[j.val]'(by omega)).coeff v : F) = 0 := by
        split
        · next hff =>
          rw [if_pos hff] at hlen
          split
          · exact if_neg (Ne.symm (hk _ (by omega)))
          · rfl
        · next hff =>
          rw [if_neg hff] at hlen
          split
          · exact if_neg (Ne.symm (hk _ (by omega)))
          · exact k2 _ (List.getElem_mem _)
      rw [this, mul_zero]
  · -- present
    intro k hk
    rw [List.length_append] at hk
    by_cases hk' : k < as.length
    · exact Or.inl (hearly k hk')
    · refine Or.inr ⟨by omega, ?_⟩
      have := hnew (k - as.length) (by omega) 0 (by omega) ht
      rw [show as.length + (k - as.length) = k by omega] at this
      rw [this]
      exact h0 _
  · rintro rfl
    rw [if_pos rfl] at hlen
    refine ⟨hlen, fun i hi hi' j hj => ?_, fun v hv hk x hx => ?_⟩
    · have := hnew (j.val - c) (by omega) i hi hi'
      rw [hbox, this]
      congr 2
      omega
    · obtain ⟨i, hi, rfl⟩ := List.getElem_of_mem hx
      rw [hword v hv i hi (by omega)]
      refine Finset.sum_eq_zero fun j _ => ?_
      rw [if_pos rfl]
      split
      · have := hk (j.val - c) (by omega)
        rw [hbox] at this
        rw [ind, if_neg (Ne.symm this), mul_zero]
      · rw [mul_zero]
  · intro j hj a ha
    obtain ⟨k1, k2⟩ := hcols.never (boxOut n0 (as.length + j)) (hne _) (hfresh _ (by omega)) fun k hk => by
      rw [Ne, boxOut_inj]; omega
    rcases List.mem_append.1 ha with ha | ha
    · exact k1 a ha
    · exact hmem _ (hne _) k2 a ha
  · intro v hv x hx hxv
    obtain ⟨a, ha, hxa⟩ := (boxes_mem (h4 (ind v) (ind_one hv)).1).2 x hx
    exact ⟨a, ha, by rw [LC.coeff, hxa]; exact hxv⟩

/-- The state after some rounds. -/
structure Mid (t : Nat) (s0 : List (FpVar F)) (cs0 : CS F) (c : Nat) (as : List (LC F)) (r : List (FpVar F) × Nat × CS F) : Prop where
  boxes : Boxes as cs0 r.2.2
  length : r.1.length = t
  vars : ∀ i (hi : i < r.1.length), r.1[i].isVar = decide (0 ≤ i)
  cols : Cols s0 cs0.numWitness as r.1
  inputs : ∀ v, v ≠ .one → ∀ x ∈ s0.drop c, x.coeff v ≠ 0 → ∃ a ∈ as, LC.coeff v a ≠ 0

/-- The state after a full round which is not the first one. -/
structure Last (m : Fin t → Fin t → F) (cs0 : CS F) (as bs : List (LC F)) (r : List (FpVar F) × Nat × CS F) : Prop where
  full : Full m 0 (cs0.numWitness + 5 * as.length) bs r.1
  late : ∀ j, j < bs.length → ∀ a ∈ as ++ bs, LC.coeff (boxOut cs0.numWitness (as.length + j)) a = 0
  early : ∀ k, k < as.length → ∃ a ∈ as ++ bs, LC.coeff (boxOut cs0.numWitness k) a ≠ 0

theorem round_mid (p : Params F t tm1 nmds nhat rows cols nround npart) (ha : p.alpha = .exponent 17) (ht : 0 < t)
    (hm : nmds = t * t) (h0 : ∀ j, p.mds.toM hm ⟨0, ht⟩ j ≠ 0) (full : Bool) {s0 : List (FpVar F)} {cs0 : CS F}
    (hfresh : ∀ i, cs0.numWitness ≤ i → ∀ x ∈ s0, x.coeff (.witness i) = 0) {c : Nat} {as : List (LC F)}
    {r : List (FpVar F) × Nat × CS F} (h : Mid t s0 cs0 c as r) :
    Ens (fun r' => ∃ bs, Mid t s0 cs0 c (as ++ bs) r' ∧ (full = true → Last (p.mds.toM hm) cs0 as bs r')) (round p full r) := by
  obtain ⟨s, counter, cs⟩ := r
  refine (round_cols p ha ht hm h0 full hfresh counter rfl h.boxes h.cols h.length h.vars (fun _ => rfl) (Or.inl rfl)).mono ?_
  rintro r' ⟨bs, k1, k2, k3, k4, k5, k6, k7, k8⟩
  refine ⟨bs, ⟨k1, k2, k3, k4, fun v hv x hx hxv => ?_⟩, fun hf => ⟨k5 hf, k6, k7⟩⟩
  obtain ⟨a, ha, h'⟩ := h.inputs v hv x hx hxv
  exact ⟨a, List.mem_append_left _ ha, h'⟩

theorem permute_cols (p : Params F t tm1 nmds nhat rows cols nround npart) (ha : p.alpha = .exponent 17) (ht : 0 < t)
    (hm : nmds = t * t) (h0 : ∀ j, p.mds.toM hm ⟨0, ht⟩ j ≠ 0) (hr : 0 < p.rounds.full / 2) {s0 : List (FpVar F)} {cs0 : CS F}
    (hs : s0.length = t) (hfresh : ∀ i, cs0.numWitness ≤ i → ∀ x ∈ s0, x.coeff (.witness i) = 0) {c : Nat}
    (hv : ∀ i (hi : i < s0.length), s0[i].isVar = decide (c ≤ i)) :
    Ens (fun r => ∃ counter as bs, Mid t s0 cs0 c (as ++ bs) (r.1, counter, r.2) ∧
      Last (p.mds.toM hm) cs0 as bs (r.1, counter, r.2)) (permute p s0 cs0) := by
  unfold permute
  dsimp only
  refine Ens.bind (Q := fun r => ∃ as, Mid t s0 cs0 c as r) ?_ fun r1 h1 => ?_
  · refine (Ens.forRange (Inv := fun i (r : List (FpVar F) × Nat × CS F) => (i = 0 ∧ r = (s0, 0, cs0)) ∨
      (0 < i ∧ ∃ as, Mid t s0 cs0 c as r)) (Nat.zero_le _) (Or.inl ⟨rfl, rfl⟩) ?_).mono ?_
    · rintro i r _ _ (⟨rfl, rfl⟩ | ⟨hi, as, h⟩)
      · refine (round_cols p ha ht hm h0 true hfresh 0 rfl (Boxes.refl cs0) (s := s0) ⟨fun v hv hx _ => ⟨fun a ha => absurd ha List.not_mem_nil, hx⟩,
          fun k hk => absurd hk (by simp)⟩ hs hv (fun h => by cases h) (Or.inr rfl)).mono ?_
        rintro r' ⟨bs, k1, k2, k3, k4, -, -, -, k8⟩
        refine Or.inr ⟨by omega, bs, k1, k2, k3, k4, fun v hv x hx hxv => k8 v hv x (by simpa using hx) hxv⟩
      · refine (round_mid p ha ht hm h0 true hfresh h).mono ?_
        rintro r' ⟨bs, k, -⟩
        exact Or.inr ⟨by omega, _, k⟩
    · rintro r (⟨h, -⟩ | ⟨-, h⟩)
      · omega
      · exact h
  · refine Ens.bind (Q := fun r => ∃ as, Mid t s0 cs0 c as r) ?_ fun r2 h2 => ?_
    · refine Ens.forRange (Inv := fun _ (r : List (FpVar F) × Nat × CS F) => ∃ as, Mid t s0 cs0 c as r) (Nat.zero_le _) h1 ?_
      rintro i r _ _ ⟨as, h⟩
      refine (round_mid p ha ht hm h0 false hfresh h).mono ?_
      rintro r' ⟨bs, k, -⟩
      exact ⟨_, k⟩
    · refine Ens.bind (Q := fun r => ∃ as bs, Mid t s0 cs0 c (as ++ bs) r ∧ Last (p.mds.toM hm) cs0 as bs r) ?_ fun r3 h3 => ?_
      · refine (Ens.forRange (Inv := fun i (r : List (FpVar F) × Nat × CS F) => (i = 0 ∧ ∃ as, Mid t s0 cs0 c as r) ∨
          (0 < i ∧ ∃ as bs, Mid t s0 cs0 c (as ++ bs) r ∧ Last (p.mds.toM hm) cs0 as bs r)) (Nat.zero_le _) (Or.inl ⟨rfl, h2⟩) ?_).mono ?_
        · intro i r _ _ h
          obtain ⟨as, h⟩ : ∃ as, Mid t s0 cs0 c as r := by
            rcases h with ⟨-, h⟩ | ⟨-, as, bs, h, -⟩
            · exact h
            · exact ⟨_, h⟩
          refine (round_mid p ha ht hm h0 true hfresh h).mono ?_
          rintro r' ⟨bs, k, k'⟩
          exact Or.inr ⟨by omega, as, bs, k, k' rfl⟩
        · rintro r (⟨h, -⟩ | ⟨-, h⟩)
          · omega
          · exact h
      · obtain ⟨as, bs, h3⟩ := h3
        exact Ens.ok ⟨r3.2.1, as, bs, h3⟩

/-- What the rows of a circuit hash are about. -/
structure HashRows (m : Fin t → F) (c : Nat) (s0 : List (FpVar F)) (cs0 cs : CS F) (out : FpVar F) (as : List (LC F)) (l : Nat) : Prop where
  boxes : Boxes as cs0 cs
  length : as.length = l + t
  never : ∀ v, v ≠ .one → (∀ x ∈ s0, x.coeff v = 0) → (∀ k, k < as.length → v ≠ boxOut cs0.numWitness k) →
    ∀ a ∈ as, LC.coeff v a = 0
  inputs : ∀ v, v ≠ .one → ∀ x ∈ s0.drop c, x.coeff v ≠ 0 → ∃ a ∈ as, LC.coeff v a ≠ 0
  early : ∀ k, k < l → ∃ a ∈ as, LC.coeff (boxOut cs0.numWitness k) a ≠ 0
  late : ∀ j, j < t → ∀ a ∈ as, LC.coeff (boxOut cs0.numWitness (l + j)) a = 0
  isVar : out.isVar = true
  outs : ∀ j : Fin t, out.coeff (boxOut cs0.numWitness (l + j.val)) = m j
  other : ∀ v, v ≠ .one → (∀ j, j < t → v ≠ boxOut cs0.numWitness (l + j)) → out.coeff v = 0

theorem hash_rows (p : Params F t tm1 nmds nhat rows cols nround npart) (ha : p.alpha = .exponent 17) (ht : 1 < t)
    (hm : nmds = t * t) (h0 : ∀ j, p.mds.toM hm ⟨0, by omega⟩ j ≠ 0) (hr : 0 < p.rounds.full / 2) {inputs : Vector (FpVar F) t} {cs0 : CS F}
    (hfresh : ∀ i, cs0.numWitness ≤ i → ∀ x ∈ inputs.toList, x.coeff (.witness i) = 0) {c : Nat}
    (hv : ∀ i (hi : i < inputs.toList.length), inputs.toList[i].isVar = decide (c ≤ i)) :
    Ens (fun r => ∃ as l, HashRows (p.mds.toM hm ⟨1, ht⟩) c inputs.toList cs0 r.2 r.1 as l) (nTo1FixedHash p inputs cs0) := by
  unfold nTo1FixedHash
  refine Ens.bind (permute_cols p ha (by omega) hm h0 hr (by simp) hfresh hv) ?_
  rintro ⟨s, cs⟩ ⟨counter, as, bs, h1, h2⟩
  have hl : s.length = t := h1.length
  dsimp only
  rw [lget_lt _ (by omega), ok_bind]
  have hbl := h2.full.length
  rw [Nat.sub_zero] at hbl
  have hbox : ∀ j, boxOut (cs0.numWitness + 5 * as.length) j = boxOut cs0.numWitness (as.length + j) := by
    intro j; simp only [boxOut, Variable.witness.injEq]; ring
  refine Ens.ok ⟨as ++ bs, as.length, h1.boxes, by rw [List.length_append, hbl], fun v hv hx hk => (h1.cols.never v hv hx hk).1,
    h1.inputs, h2.early, fun j hj => h2.late j (by omega), ?_, fun j => ?_, fun v hv hk => ?_⟩
  · have := h1.vars 1 (by rw [hl]; exact ht)
    simpa using this
  · have := h2.full.out 1 (by rw [hl]; exact ht) ht j (Nat.zero_le _)
    rwa [hbox, Nat.sub_zero] at this
  · refine h2.full.other v hv (fun k hk' => ?_) _ (List.getElem_mem _)
    rw [hbox]
    exact hk k (by omega)

end Poseidon.R1cs
