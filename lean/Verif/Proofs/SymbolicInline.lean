import Verif.Proofs.SymbolicLower
import Mathlib.Data.List.Sort

/-! # `finalize` and `to_matrices` -/

set_option linter.unusedSectionVars false

namespace Poseidon.Sym

variable {F : Type} [Field F] [DecidableEq F]

/-! ### Values -/

theorem eval_append (σ : R1cs.Variable → F) (l l' : R1cs.LC F) :
    R1cs.LC.eval σ (l ++ l') = R1cs.LC.eval σ l + R1cs.LC.eval σ l' := by
  simp [R1cs.LC.eval]

theorem eval_scale (σ : R1cs.Variable → F) (c : F) (l : R1cs.LC F) :
    R1cs.LC.eval σ (l.map fun y => (y.1 * c, y.2)) = c * R1cs.LC.eval σ l := by
  induction l with
  | nil => simp [R1cs.LC.eval]
  | cons y l ih =>
    have : ∀ (y : F × R1cs.Variable) (l : R1cs.LC F), R1cs.LC.eval σ (y :: l) = y.1 * σ y.2 + R1cs.LC.eval σ l := fun _ _ => by
      simp [R1cs.LC.eval]
    rw [List.map_cons, this, this, ih]
    ring

theorem lowWith_eval (σ : R1cs.Variable → F) (acc : List (R1cs.LC F)) (v : Var) :
    R1cs.LC.eval σ (v.lowWith acc) = v.evalWith σ (acc.map (R1cs.LC.eval σ)) := by
  cases v with
  | lc i =>
    show R1cs.LC.eval σ (acc.getD i []) = (acc.map _).getD i 0
    rw [List.getD_eq_getElem?_getD, List.getD_eq_getElem?_getD, List.getElem?_map]
    cases acc[i]? <;> simp [R1cs.LC.eval]
  | _ => simp [Var.lowWith, Var.evalWith, R1cs.LC.eval]

theorem LC.lowWith_eval (σ : R1cs.Variable → F) (acc : List (R1cs.LC F)) (l : LC F) :
    R1cs.LC.eval σ (LC.lowWith acc l) = (l.map fun x => x.1 * x.2.evalWith σ (acc.map (R1cs.LC.eval σ))).sum := by
  induction l with
  | nil => simp [LC.lowWith, R1cs.LC.eval]
  | cons x l ih =>
    have : LC.lowWith acc (x :: l) = ((x.2.lowWith acc).map fun y => (y.1 * x.1, y.2)) ++ LC.lowWith acc l := rfl
    rw [this, eval_append, eval_scale, Sym.lowWith_eval, ih, List.map_cons, List.sum_cons]

theorem evalAll_eq (σ : R1cs.Variable → F) (m : List (LC F)) : evalAll σ m = (lowAll m).map (R1cs.LC.eval σ) := by
  induction m using List.reverseRecOn with
  | nil => rfl
  | append_singleton m l ih =>
    rw [lowAll_snoc, List.map_append, ← ih, evalAll, List.foldl_append]
    show _ ++ [_] = _ ++ [_]
    rw [LC.lowWith_eval, ← ih]
    rfl

theorem eval_low (σ : R1cs.Variable → F) (cs : CS F) (x : FpVar F) : (x.low cs).eval σ = x.eval σ cs := by
  cases x with
  | constant c => rfl
  | var v =>
    show R1cs.LC.eval σ (v.var.lowWith _) = _
    rw [lowWith_eval, ← evalAll_eq]
    rfl

/-! ### `compactify` -/

/-- Value of a combination without symbolic terms. -/
def evalC (σ : R1cs.Variable → F) (l : LC F) : F := (l.map fun x => x.1 * x.2.evalWith σ []).sum

theorem evalC_cons (σ : R1cs.Variable → F) (x : F × Var) (l : LC F) :
    evalC σ (x :: l) = x.1 * x.2.evalWith σ [] + evalC σ l := by simp [evalC]

theorem evalC_append (σ : R1cs.Variable → F) (l l' : LC F) : evalC σ (l ++ l') = evalC σ l + evalC σ l' := by simp [evalC]

theorem evalC_perm (σ : R1cs.Variable → F) {l l' : LC F} (h : l.Perm l') : evalC σ l = evalC σ l' :=
  (h.map _).sum_eq

theorem evalC_scale (σ : R1cs.Variable → F) (c : F) (l : LC F) :
    evalC σ (l.map fun y => (y.1 * c, y.2)) = c * evalC σ l := by
  induction l with
  | nil => simp [evalC]
  | cons y l ih =>
    rw [List.map_cons, evalC_cons, evalC_cons, ih]
    ring

theorem Var.le_total (a b : Var) : (a.le b || b.le a) = true := by
  cases a <;> cases b <;> simp [Var.le] <;> omega

theorem Var.le_trans (a b c : Var) (h1 : a.le b = true) (h2 : b.le c = true) : a.le c = true := by
  cases a <;> cases b <;> cases c <;> simp [Var.le] at * <;> omega

/-- Strictly before. -/
def Var.Lt (a b : Var) : Prop := a.le b = true ∧ a ≠ b

theorem Var.Lt.trans {a b c : Var} (h1 : a.Lt b) (h2 : b.Lt c) : a.Lt c := by
  refine ⟨Var.le_trans _ _ _ h1.1 h2.1, ?_⟩
  rintro rfl
  have a1 := h1.1
  have a2 := h2.1
  have a3 := h1.2
  cases a <;> cases b <;> simp_all [Var.le] <;> omega

theorem mergeTerms_eval (σ : R1cs.Variable → F) : ∀ (l acc : LC F), evalC σ (mergeTerms acc l) = evalC σ acc + evalC σ l := by
  intro l
  induction l with
  | nil =>
    intro acc
    unfold mergeTerms
    rw [evalC_perm σ (List.reverse_perm acc)]
    simp [evalC]
  | cons x l ih =>
    intro acc
    cases acc with
    | nil =>
      rw [mergeTerms, ih]
      simp only [evalC_cons, show evalC σ [] = 0 from rfl]
      ring
    | cons y acc =>
      obtain ⟨c, v⟩ := y
      obtain ⟨d, w⟩ := x
      rw [mergeTerms]
      split
      · next h =>
        rw [ih]
        subst h
        simp only [evalC_cons]
        ring
      · rw [ih]
        simp only [evalC_cons]
        ring

theorem mergeTerms_mem : ∀ (l acc : LC F) (P : Var → Prop), (∀ x ∈ acc, P x.2) → (∀ x ∈ l, P x.2) →
    ∀ x ∈ mergeTerms acc l, P x.2 := by
  intro l
  induction l with
  | nil =>
    intro acc P h1 _ x hx
    unfold mergeTerms at hx
    exact h1 x (List.mem_reverse.1 hx)
  | cons y l ih =>
    intro acc P h1 h2
    have hl := fun x hx => h2 x (List.mem_cons_of_mem _ hx)
    have hy := h2 y List.mem_cons_self
    cases acc with
    | nil =>
      rw [mergeTerms]
      exact ih _ P (by simpa using hy) hl
    | cons z acc =>
      obtain ⟨c, v⟩ := z
      obtain ⟨d, w⟩ := y
      rw [mergeTerms]
      split
      · exact ih _ P (by
          intro x hx
          rcases List.mem_cons.1 hx with rfl | hx
          · exact h1 (c, v) List.mem_cons_self
          · exact h1 x (List.mem_cons_of_mem _ hx)) hl
      · exact ih _ P (by
          intro x hx
          rcases List.mem_cons.1 hx with rfl | hx
          · exact hy
          · exact h1 x hx) hl

/-- Terms in strictly increasing order of their variables. -/
def Strict (l : LC F) : Prop := l.Pairwise fun a b => a.2.Lt b.2

theorem mergeTerms_strict : ∀ (l acc : LC F), Strict acc.reverse → l.Pairwise (fun a b => a.2.le b.2 = true) →
    (∀ x ∈ acc.head?, ∀ y ∈ l, x.2.le y.2 = true) → Strict (mergeTerms acc l) := by
  intro l
  induction l with
  | nil => intro acc h _ _; unfold mergeTerms; exact h
  | cons y l ih =>
    intro acc h1 h2 h3
    obtain ⟨h4, h5⟩ := List.pairwise_cons.1 h2
    cases acc with
    | nil =>
      rw [mergeTerms]
      exact ih _ (by simp [Strict]) h5 (by
        intro x hx z hz
        cases hx
        exact h4 z hz)
    | cons z acc =>
      obtain ⟨c, v⟩ := z
      obtain ⟨d, w⟩ := y
      have h6 : ∀ y ∈ (d, w) :: l, v.le y.2 = true := h3 (c, v) rfl
      rw [mergeTerms]
      split
      · next h =>
        refine ih _ ?_ h5 ?_
        · rw [List.reverse_cons, Strict, List.pairwise_append] at h1 ⊢
          refine ⟨h1.1, by simp, ?_⟩
          intro a ha b hb
          rw [List.mem_singleton.1 hb]
          exact h1.2.2 a ha (c, v) (by simp)
        · intro x hx y hy
          cases hx
          exact h6 y (List.mem_cons_of_mem _ hy)
      · next h =>
        refine ih _ ?_ h5 ?_
        · rw [List.reverse_cons, Strict, List.pairwise_append]
          refine ⟨h1, by simp, ?_⟩
          intro a ha b hb
          rw [List.mem_singleton.1 hb]
          have hvw : v.Lt w := ⟨h6 (d, w) List.mem_cons_self, fun e => h e.symm⟩
          rw [List.reverse_cons] at ha h1
          rcases List.mem_append.1 ha with ha | ha
          · exact (((List.pairwise_append.1 h1).2.2 a ha (c, v) (by simp)) : a.2.Lt v).trans hvw
          · rw [List.mem_singleton.1 ha]
            exact hvw
        · intro x hx y hy
          cases hx
          exact h4 y hy

theorem compactify_strict (l : LC F) : Strict (compactify l) := by
  refine mergeTerms_strict _ _ (by simp [Strict]) ?_ (by simp)
  exact List.pairwise_mergeSort (fun a b c h1 h2 => Var.le_trans a.2 b.2 c.2 h1 h2) (fun a b => Var.le_total a.2 b.2) l

theorem compactify_eval (σ : R1cs.Variable → F) (l : LC F) : evalC σ (compactify l) = evalC σ l := by
  rw [compactify, mergeTerms_eval, evalC_perm σ (List.mergeSort_perm l _)]
  simp [evalC]

theorem compactify_mem (l : LC F) (P : Var → Prop) (h : ∀ x ∈ l, P x.2) : ∀ x ∈ compactify l, P x.2 :=
  mergeTerms_mem _ _ P (by simp) fun x hx => h x ((List.mergeSort_perm l _).mem_iff.1 hx)

/-! ### `transform_lc_map` -/

/-- An allocated variable that is not symbolic. -/
def Conc (ni nw : Nat) : Var → Prop
  | .one => True
  | .input i => 0 < i ∧ i < ni
  | .witness i => i < nw
  | .lc _ => False

/-- `e` is what becomes of the combination `i`. -/
structure Inlined (ni nw : Nat) (L : List (R1cs.LC F)) (i : Nat) (e : LC F) : Prop where
  conc : ∀ x ∈ e, Conc ni nw x.2
  strict : Strict e
  eval : ∀ σ, evalC σ e = R1cs.LC.eval σ (L.getD i [])

/-- How often the combination `i` occurs. -/
def cnt (l : LC F) (i : Nat) : Nat := l.countP fun x => x.2 = .lc i

/-- The same in many. -/
def cnts (m : List (LC F)) (i : Nat) : Nat := (m.map fun l => cnt l i).sum

theorem conc_eval {ni nw : Nat} {v : Var} (h : Conc ni nw v) (σ : R1cs.Variable → F) (acc : List (R1cs.LC F)) :
    v.evalWith σ [] = R1cs.LC.eval σ (v.lowWith acc) := by
  rw [lowWith_eval]
  cases v with
  | lc i => exact h.elim
  | _ => rfl

/-- The state of the loops of `transform_lc_map`: `later i` uses of the combination `i` are still to come. -/
structure LoopInv (ni nw n k : Nat) (L : List (R1cs.LC F)) (tot later : Nat → Nat) (map : List (Option (LC F))) (used : List Nat) :
    Prop where
  mapLen : map.length = k
  used : ∀ i, i < n → used[i]? = some (later i)
  le : ∀ i, i < n → later i ≤ tot i
  map : ∀ i, i < k → (0 < later i ∨ tot i = 0) → ∃ e, map[i]? = some (some e) ∧ Inlined ni nw L i e

theorem inline_loop {ni nw n k : Nat} {L : List (R1cs.LC F)} {tot : Nat → Nat} (hk : k ≤ n) (later : Nat → Nat) :
    ∀ (rest out : LC F) (map : List (Option (LC F))) (used : List Nat),
      LoopInv ni nw n k L tot (fun i => cnt rest i + later i) map used →
      (∀ x ∈ rest, (∃ i, x.2 = .lc i ∧ i < k) ∨ Conc ni nw x.2) → (∀ x ∈ out, Conc ni nw x.2) →
      ∃ out' map' used', forList rest (out, map, used) inlineTerm = .ok (out', map', used') ∧
        LoopInv ni nw n k L tot later map' used' ∧ (∀ x ∈ out', Conc ni nw x.2) ∧
        ∀ σ, evalC σ out' = evalC σ out + R1cs.LC.eval σ (LC.lowWith L rest) := by
  intro rest
  induction rest with
  | nil =>
    intro out map used hI _ ho
    refine ⟨out, map, used, rfl, ?_, ho, fun σ => by simp [LC.lowWith, R1cs.LC.eval]⟩
    simpa [cnt] using hI
  | cons x rest ih =>
    intro out map used hI hx ho
    have hrest := fun y hy => hx y (List.mem_cons_of_mem _ hy)
    have hlow : ∀ σ, R1cs.LC.eval σ (LC.lowWith L (x :: rest)) = x.1 * R1cs.LC.eval σ (x.2.lowWith L) +
        R1cs.LC.eval σ (LC.lowWith L rest) := by
      intro σ
      have : LC.lowWith L (x :: rest) = ((x.2.lowWith L).map fun y => (y.1 * x.1, y.2)) ++ LC.lowWith L rest := rfl
      rw [this, eval_append, eval_scale]
    have hcnt : ∀ i, cnt (x :: rest) i = cnt rest i + if x.2 = .lc i then 1 else 0 := by
      intro i
      simp [cnt, List.countP_cons]
    have hconc : Conc ni nw x.2 → ∃ out' map' used', forList (x :: rest) (out, map, used) inlineTerm = .ok (out', map', used') ∧
        LoopInv ni nw n k L tot later map' used' ∧ (∀ x ∈ out', Conc ni nw x.2) ∧
        ∀ σ, evalC σ out' = evalC σ out + R1cs.LC.eval σ (LC.lowWith L (x :: rest)) := by
      intro hc
      have hstep : inlineTerm x (out, map, used) = .ok (out ++ [(x.1, x.2)], map, used) := by
        unfold inlineTerm
        obtain ⟨c, v⟩ := x
        cases v with
        | lc i => exact hc.elim
        | _ => rfl
      have hne : ∀ i, ¬ x.2 = .lc i := by
        intro i h
        rw [h] at hc
        exact hc
      have hI' : LoopInv ni nw n k L tot (fun i => cnt rest i + later i) map used := by
        simpa only [hcnt, hne, if_false, Nat.add_zero] using hI
      obtain ⟨o, mp, us, h1, h2, h3, h4⟩ := ih (out ++ [(x.1, x.2)]) map used hI' hrest (by
        intro y hy
        rcases List.mem_append.1 hy with hy | hy
        · exact ho y hy
        · rw [List.mem_singleton.1 hy]
          exact hc)
      refine ⟨o, mp, us, ?_, h2, h3, fun σ => ?_⟩
      · rw [forList, hstep]
        exact h1
      · rw [h4, hlow, evalC_append, ← conc_eval hc σ L]
        simp only [evalC_cons, show evalC σ [] = 0 from rfl]
        ring
    rcases hx x List.mem_cons_self with ⟨i, hi, hik⟩ | hc
    · have hin : i < n := by omega
      have hci : cnt (x :: rest) i = cnt rest i + 1 := by rw [hcnt, if_pos hi]
      have hcj : ∀ j, j ≠ i → cnt (x :: rest) j = cnt rest j := by
        intro j hj
        rw [hcnt, if_neg, Nat.add_zero]
        rw [hi]
        intro h
        exact hj (Var.lc.inj h).symm
      have hui : used[i]? = some (cnt rest i + 1 + later i) := by rw [hI.used i hin]; simp only [hci]
      have hlen : i < used.length := (List.getElem?_eq_some_iff.1 hui).1
      obtain ⟨e, he, hinl⟩ := hI.map i hik (.inl (by simp only [hci]; omega))
      have htot : cnt rest i + 1 + later i ≤ tot i := by have := hI.le i hin; simp only [hci] at this; exact this
      have hmlen : i < map.length := by rw [hI.mapLen]; exact hik
      set r := cnt rest i + later i with hr
      let map1 := if r = 0 then map.set i none else map
      have hstep : inlineTerm x (out, map, used) =
          .ok (out ++ e.map (fun y => (y.1 * x.1, y.2)), map1, used.set i r) := by
        unfold inlineTerm
        dsimp only
        rw [hi]
        dsimp only
        have g1 : lget map i = .ok (some e) := by
          rw [lget_lt _ hmlen]
          rw [List.getElem?_eq_getElem hmlen] at he
          rw [Option.some.inj he]
        have g2 : lget used i = .ok (r + 1) := by
          rw [lget_lt _ hlen]
          rw [List.getElem?_eq_getElem hlen] at hui
          rw [Option.some.inj hui]
          congr 1
          omega
        have g3 : usub (r + 1) 1 = .ok r := by simp [usub]
        have g4 : R1cs.lset used i r = .ok (used.set i r) := by simp [R1cs.lset, hlen]
        have g5 : (if r = 0 then R1cs.lset map i none else pure map : R (List (Option (LC F)))) = .ok map1 := by
          by_cases h0 : r = 0
          · simp [map1, h0, R1cs.lset, hmlen]
          · simp [map1, h0]
        rw [g1, ok_bind]
        dsimp only
        rw [g2, ok_bind, g3, ok_bind, g4, ok_bind]
        by_cases h0 : r = 0
        · rw [if_pos h0] at g5
          simp only [h0, if_true] at g5 ⊢
          rw [g5]
          rfl
        · rw [if_neg h0] at g5
          simp only [h0, if_false] at g5 ⊢
          rw [g5]
          rfl
      have hI' : LoopInv ni nw n k L tot (fun i => cnt rest i + later i) map1 (used.set i r) := by
        refine ⟨?_, ?_, ?_, ?_⟩
        · by_cases h0 : r = 0 <;> simp [map1, h0, hI.mapLen]
        · intro j hj
          by_cases hji : j = i
          · subst hji
            simp [hlen, hr]
          · rw [List.getElem?_set_ne (fun h => hji h.symm), hI.used j hj]
            simp only [hcj j hji]
        · intro j hj
          by_cases hji : j = i
          · subst hji
            omega
          · have := hI.le j hj
            simp only [hcj j hji] at this
            exact this
        · intro j hj hj'
          by_cases hji : j = i
          · subst hji
            have h0 : ¬ r = 0 := by
              intro h0
              omega
            refine ⟨e, ?_, hinl⟩
            simp only [map1, h0, if_false]
            exact he
          · obtain ⟨e', he', hinl'⟩ := hI.map j hj (by
              simp only [hcj j hji]
              exact hj')
            refine ⟨e', ?_, hinl'⟩
            by_cases h0 : r = 0
            · simp only [map1, h0, if_true]
              rw [List.getElem?_set_ne (fun h => hji h.symm), he']
            · simp only [map1, h0, if_false]
              exact he'
      obtain ⟨o, mp, us, h1, h2, h3, h4⟩ := ih (out ++ e.map fun y => (y.1 * x.1, y.2)) _ _ hI' hrest (by
        intro y hy
        rcases List.mem_append.1 hy with hy | hy
        · exact ho y hy
        · obtain ⟨z, hz, rfl⟩ := List.mem_map.1 hy
          exact hinl.conc z hz)
      refine ⟨o, mp, us, ?_, h2, h3, fun σ => ?_⟩
      · rw [forList, hstep]
        exact h1
      · rw [h4, hlow, evalC_append, evalC_scale, hinl.eval σ, hi]
        show _ + _ * _ + _ = _ + (_ * R1cs.LC.eval σ (L.getD i []) + _)
        ring
    · exact hconc hc

/-- Combination `k` in terms of all inlined ones. -/
theorem lowAll_get (pre : List (LC F)) (l : LC F) (suf : List (LC F)) (h : ∀ x ∈ l, ∀ j, x.2 = .lc j → j < pre.length) :
    (lowAll (pre ++ l :: suf)).getD pre.length [] = LC.lowWith (lowAll (pre ++ l :: suf)) l := by
  obtain ⟨e, he⟩ := lowAll_prefix (pre ++ [l]) suf
  rw [List.append_assoc, List.singleton_append] at he
  rw [lowAll_snoc, List.append_assoc] at he
  rw [he, LC.lowWith_append _ _ _ fun x hx j hj => by rw [lowAll_length]; exact h x hx j hj]
  rw [List.getD_eq_getElem?_getD, List.getElem?_append_right (by rw [lowAll_length])]
  simp [lowAll_length]

/-- The body of the outer loop. -/
def outerBody (l : LC F) (st : List (Option (LC F)) × List Nat) : R (List (Option (LC F)) × List Nat) := do
  let (out, map, used) ← forList l ([], st.1, st.2) inlineTerm
  return (map ++ [some (compactify out)], used)

theorem inlineAll_def (m : List (LC F)) :
    inlineAll m = (forList m ([], numTimesUsed m) outerBody >>= fun r => pure r.1) := rfl

theorem outer_loop {ni nw : Nat} {m : List (LC F)}
    (hm : ∀ (i : Nat) (l : LC F), m[i]? = some l → ∀ x ∈ l, (∃ j, x.2 = .lc j ∧ j < i) ∨ Conc ni nw x.2) :
    ∀ (suf pre : List (LC F)), m = pre ++ suf → ∀ (map : List (Option (LC F))) (used : List Nat),
      LoopInv ni nw m.length pre.length (lowAll m) (cnts m) (cnts suf) map used →
      ∃ map' used', forList suf (map, used) outerBody = .ok (map', used') ∧
        LoopInv ni nw m.length m.length (lowAll m) (cnts m) (fun _ => 0) map' used' := by
  intro suf
  induction suf with
  | nil =>
    intro pre hpre map used hI
    refine ⟨map, used, rfl, ?_⟩
    rw [List.append_nil] at hpre
    subst hpre
    exact hI
  | cons l suf ih =>
    intro pre hpre map used hI
    have hl : m[pre.length]? = some l := by rw [hpre]; simp
    have hk : pre.length < m.length := by rw [hpre]; simp
    have hterms := hm _ l hl
    obtain ⟨out, map1, used1, h1, h2, h3, h4⟩ := inline_loop (ni := ni) (nw := nw) (L := lowAll m) (tot := cnts m) hk.le (cnts suf) l
      [] map used (by
        have : cnts (l :: suf) = fun i => cnt l i + cnts suf i := by
          funext i
          simp [cnts]
        rwa [this] at hI) hterms (by simp)
    have hval : ∀ σ, evalC σ out = R1cs.LC.eval σ ((lowAll m).getD pre.length []) := by
      intro σ
      rw [h4 σ, show evalC σ [] = 0 from rfl, zero_add, hpre, lowAll_get pre l suf]
      intro x hx j hj
      rcases hterms x hx with ⟨i, hi, hik⟩ | hc
      · rw [hi] at hj
        cases hj
        exact hik
      · rw [hj] at hc
        exact hc.elim
    have hI' : LoopInv ni nw m.length (pre ++ [l]).length (lowAll m) (cnts m) (cnts suf) (map1 ++ [some (compactify out)]) used1 := by
      refine ⟨by simp [h2.mapLen], h2.used, h2.le, ?_⟩
      intro i hi hi'
      by_cases hik : i < pre.length
      · obtain ⟨e, he, hin⟩ := h2.map i hik hi'
        refine ⟨e, ?_, hin⟩
        rw [List.getElem?_append_left (by rw [h2.mapLen]; exact hik)]
        exact he
      · have : i = pre.length := by
          rw [List.length_append, List.length_singleton] at hi
          omega
        subst this
        refine ⟨compactify out, ?_, compactify_mem _ _ h3, compactify_strict _, fun σ => ?_⟩
        · rw [List.getElem?_append_right (by rw [h2.mapLen])]
          simp [h2.mapLen]
        · rw [compactify_eval, hval]
    obtain ⟨map', used', h5, h6⟩ := ih (pre ++ [l]) (by simp [hpre]) _ _ hI'
    refine ⟨map', used', ?_, h6⟩
    rw [forList, outerBody, h1]
    exact h5

theorem inlineAll_spec {ni nw : Nat} {m : List (LC F)}
    (hm : ∀ (i : Nat) (l : LC F), m[i]? = some l → ∀ x ∈ l, (∃ j, x.2 = .lc j ∧ j < i) ∨ Conc ni nw x.2) :
    ∃ map, inlineAll m = .ok map ∧ map.length = m.length ∧
      ∀ i, i < m.length → (∀ l ∈ m, ∀ x ∈ l, x.2 ≠ .lc i) → ∃ e, map[i]? = some (some e) ∧ Inlined ni nw (lowAll m) i e := by
  obtain ⟨map, used, h1, h2⟩ := outer_loop hm m [] rfl [] (numTimesUsed m) (by
    refine ⟨rfl, ?_, fun _ _ => le_rfl, fun i hi => by simp at hi⟩
    intro i hi
    simp [numTimesUsed, cnts, cnt, hi])
  refine ⟨map, ?_, h2.mapLen, fun i hi hno => h2.map i hi (.inr ?_)⟩
  · rw [inlineAll_def, h1]
    rfl
  · unfold cnts
    rw [List.sum_eq_zero_iff_forall_eq_nat]
    intro c hc
    obtain ⟨l, hl, rfl⟩ := List.mem_map.1 hc
    rw [cnt, List.countP_eq_zero]
    intro x hx
    simpa using hno l hl x hx

/-! ### `to_matrices` -/

/-- Column of an allocated variable. -/
def col (ni : Nat) : Var → Nat
  | .one => 0
  | .input i => i
  | .witness i => ni + i
  | .lc _ => 0

theorem column_eq {ni nw : Nat} {v : Var} (h : Conc ni nw v) : column ni v = .ok (col ni v) := by
  cases v with
  | lc i => exact h.elim
  | _ => rfl

theorem col_lt {ni nw : Nat} (hni : 0 < ni) {v : Var} (h : Conc ni nw v) : col ni v < ni + nw := by
  cases v with
  | lc i => exact h.elim
  | one => show 0 < _; omega
  | input i => have := h.2; show i < _; omega
  | witness i => have : i < nw := h; show ni + i < _; omega

theorem col_strict {ni nw : Nat} (hni : 0 < ni) {v w : Var} (hv : Conc ni nw v) (hw : Conc ni nw w) (h : v.Lt w) : col ni v < col ni w := by
  obtain ⟨h1, h2⟩ := h
  cases v <;> cases w <;> simp_all [Conc, Var.le, col] <;> omega

theorem col_eval {ni nw : Nat} {v : Var} (h : Conc ni nw v) (z : Nat → F) :
    v.evalWith (ofColumns ni z) [] = z (col ni v) := by
  cases v with
  | lc i => exact h.elim
  | _ => rfl

theorem makeRow_loop {ni nw : Nat} : ∀ (l : LC F) (row : List (F × Nat)), (∀ x ∈ l, Conc ni nw x.2) →
    forList l row (fun x row => if x.1 = 0 then (return row : R _) else do
      let j ← column ni x.2
      return row ++ [(x.1, j)]) = .ok (row ++ (l.filter fun x => x.1 ≠ 0).map fun x => (x.1, col ni x.2)) := by
  intro l
  induction l with
  | nil => intro row _; simp [forList]
  | cons x l ih =>
    intro row h
    have hx := h x List.mem_cons_self
    have hl := fun y hy => h y (List.mem_cons_of_mem _ hy)
    rw [forList]
    by_cases h0 : x.1 = 0
    · rw [if_pos h0]
      refine (ih row hl).trans ?_
      simp [h0]
    · rw [if_neg h0, column_eq hx]
      refine (ih _ hl).trans ?_
      simp [h0]

theorem makeRow_spec {ni nw : Nat} (hni : 0 < ni) {L : List (R1cs.LC F)} {i : Nat} {e : LC F} (h : Inlined ni nw L i e) :
    ∃ row, makeRow ni e = .ok row ∧ CleanRow (ni + nw) row ∧
      ∀ z, dot row z = R1cs.LC.eval (ofColumns ni z) (L.getD i []) := by
  refine ⟨_, makeRow_loop e [] h.conc, ⟨?_, ?_⟩, fun z => ?_⟩
  · rw [List.nil_append, List.map_map, List.pairwise_map]
    have h1 : Strict (e.filter fun x => x.1 ≠ 0) := List.Pairwise.filter _ h.strict
    refine List.Pairwise.imp_of_mem ?_ h1
    intro a b ha hb hab
    exact col_strict hni (h.conc a (List.mem_filter.1 ha).1) (h.conc b (List.mem_filter.1 hb).1) hab
  · intro x hx
    rw [List.nil_append] at hx
    obtain ⟨y, hy, rfl⟩ := List.mem_map.1 hx
    obtain ⟨hy1, hy2⟩ := List.mem_filter.1 hy
    exact ⟨by simpa using hy2, col_lt hni (h.conc y hy1)⟩
  · rw [← h.eval, List.nil_append]
    have := h.conc
    generalize e = e at this
    induction e with
    | nil => rfl
    | cons x e ih =>
      have hx := this x List.mem_cons_self
      have hrest := ih fun y hy => this y (List.mem_cons_of_mem _ hy)
      rw [evalC_cons, ← hrest, col_eval hx]
      by_cases h0 : x.1 = 0
      · simp [h0]
      · simp [h0, dot]

/-- The row `row` is the inlined combination `i`, in the form the proof system expects. -/
def RowOf (ni nw : Nat) (l : R1cs.LC F) (row : List (F × Nat)) : Prop :=
  CleanRow (ni + nw) row ∧ ∀ z, dot row z = R1cs.LC.eval (ofColumns ni z) l

/-- The body of `matrixRows`. -/
def rowBody (ni : Nat) (map : List (Option (LC F))) (i : Nat) (rows : List (List (F × Nat))) : R (List (List (F × Nat))) := do
  let some l ← lget map i | .error .unwrapNone
  let row ← makeRow ni l
  return rows ++ [row]

theorem matrixRows_spec {ni nw : Nat} (hni : 0 < ni) {L : List (R1cs.LC F)} {map : List (Option (LC F))} :
    ∀ (indices : List Nat) (rows : List (List (F × Nat))),
      (∀ i ∈ indices, ∃ e, map[i]? = some (some e) ∧ Inlined ni nw L i e) →
      ∃ rows', forList indices rows (rowBody ni map) = .ok (rows ++ rows') ∧
        List.Forall₂ (RowOf ni nw) (indices.map fun i => L.getD i []) rows' := by
  intro indices
  induction indices with
  | nil => intro rows _; exact ⟨[], by simp [forList], .nil⟩
  | cons i indices ih =>
    intro rows h
    obtain ⟨e, he, hin⟩ := h i List.mem_cons_self
    obtain ⟨row, h1, h2, h3⟩ := makeRow_spec hni hin
    obtain ⟨rows', h4, h5⟩ := ih (rows ++ [row]) fun j hj => h j (List.mem_cons_of_mem _ hj)
    refine ⟨row :: rows', ?_, .cons ⟨h2, h3⟩ h5⟩
    have hlen : i < map.length := (List.getElem?_eq_some_iff.1 he).1
    have g1 : lget map i = .ok (some e) := by
      rw [lget_lt _ hlen]
      rw [List.getElem?_eq_getElem hlen] at he
      rw [Option.some.inj he]
    rw [forList, rowBody, g1, ok_bind]
    dsimp only
    rw [h1]
    refine h4.trans ?_
    simp

theorem known_conc {cs : CS F} {v : Var} (h : v.Known cs) : (∃ i, v = .lc i) ∨ Conc cs.numInstance cs.numWitness v := by
  cases v with
  | lc i => exact .inl ⟨i, rfl⟩
  | one => exact .inr trivial
  | input i => exact .inr h
  | witness i => exact .inr h

/-- The matrices of a system: row by row the inlined constraints. -/
theorem toMatrices_spec {cs : CS F} (hs : cs.Sound) :
    ∃ M, cs.toMatrices = .ok M ∧
      List.Forall₂ (RowOf cs.numInstance cs.numWitness) (cs.lower.constraints.map (·.1)) M.a ∧
      List.Forall₂ (RowOf cs.numInstance cs.numWitness) (cs.lower.constraints.map (·.2.1)) M.b ∧
      List.Forall₂ (RowOf cs.numInstance cs.numWitness) (cs.lower.constraints.map (·.2.2)) M.c := by
  obtain ⟨map, h1, h2, h3⟩ := inlineAll_spec (ni := cs.numInstance) (nw := cs.numWitness) (m := cs.lcMap) (by
    intro i l hi x hx
    obtain ⟨h1, h2⟩ := hs.terms i l hi x hx
    rcases known_conc h1 with ⟨j, hj⟩ | h
    · exact .inl ⟨j, hj, h2 j hj⟩
    · exact .inr h)
  have key : ∀ i, cs.IsConstraint i → ∃ e, map[i]? = some (some e) ∧ Inlined cs.numInstance cs.numWitness (lowAll cs.lcMap) i e := by
    intro i hi
    refine h3 i (hs.constraints i hi) fun l hl x hx hxi => ?_
    obtain ⟨k, hk, hkl⟩ := List.getElem_of_mem hl
    have := (hs.terms k l (by rw [List.getElem?_eq_getElem hk, hkl]) x hx).1
    rw [hxi] at this
    exact this.2 hi
  have hrows : ∀ f : Nat × Nat × Nat → Nat, (∀ k, f k = k.1 ∨ f k = k.2.1 ∨ f k = k.2.2) →
      ∃ rows, matrixRows cs.numInstance map (cs.constraints.map f) = .ok rows ∧
        List.Forall₂ (RowOf cs.numInstance cs.numWitness) (cs.constraints.map fun k => (lowAll cs.lcMap).getD (f k) []) rows := by
    intro f hf
    obtain ⟨rows, h4, h5⟩ := matrixRows_spec (nw := cs.numWitness) hs.instances (L := lowAll cs.lcMap) (map := map)
      (cs.constraints.map f) [] (by
        intro i hi
        obtain ⟨k, hk, rfl⟩ := List.mem_map.1 hi
        exact key _ ⟨k, hk, hf k⟩)
    refine ⟨rows, h4.trans (by simp), ?_⟩
    rwa [List.map_map] at h5
  obtain ⟨a, ha, ha'⟩ := hrows (·.1) fun _ => .inl rfl
  obtain ⟨b, hb, hb'⟩ := hrows (·.2.1) fun _ => .inr (.inl rfl)
  obtain ⟨c, hc, hc'⟩ := hrows (·.2.2) fun _ => .inr (.inr rfl)
  refine ⟨⟨a, b, c⟩, ?_, ?_, ?_, ?_⟩
  · unfold CS.toMatrices
    rw [h1, ok_bind, ha, ok_bind, hb, ok_bind, hc]
    rfl
  · rw [CS.lower, List.map_map]
    exact ha'
  · rw [CS.lower, List.map_map]
    exact hb'
  · rw [CS.lower, List.map_map]
    exact hc'

end Poseidon.Sym
