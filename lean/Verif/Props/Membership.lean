import Verif.Props.UserProof

/-!
# Property C101: membership in a tree at a hidden position

A circuit that computes with the arguments of the circuit hashes: in a tree in which every node is the `hash_2` of its two children, the
prover shows a leaf under a public root and hides the leaf, the siblings and whether the path goes left or right.  At each level the
sibling `s` and a number `b` are witnesses; `b * b = b` is enforced, `x + b * (s - x)` and `s + x` minus this are hashed.
-/

namespace Poseidon

open Poseidon.Groth16
open R1cs (UserCircuit Satisfies CS)

/-- The root above a node: at each level the sibling, and whether the node is the right child. -/
def binaryRoot (ds : Fq) : List (Bool × Fq) → Fq → R Fq
  | [], x => .ok x
  | (false, s) :: l, x => do binaryRoot ds l (← hash2 ds (x, s))
  | (true, s) :: l, x => do binaryRoot ds l (← hash2 ds (s, x))

/-- One level of the circuit: from the node to its parent, which is the variable `n + 8`. -/
def levelUp {n : Nat} (s b : Fq) (ds node : Fin n) (next : UserCircuit (n + 9)) : UserCircuit n :=
  .witness s <| .witness b <|
  .arith .mul ⟨n + 1, by omega⟩ ⟨n + 1, by omega⟩ <| .equal ⟨n + 2, by omega⟩ ⟨n + 1, by omega⟩ <|
  .arith .sub ⟨n, by omega⟩ (node.castAdd 3) <|
  .arith .mul ⟨n + 1, by omega⟩ ⟨n + 3, by omega⟩ <|
  .arith .add (node.castAdd 5) ⟨n + 4, by omega⟩ <|
  .arith .add ⟨n, by omega⟩ (node.castAdd 6) <|
  .arith .sub ⟨n + 6, by omega⟩ ⟨n + 5, by omega⟩ <|
  .hash 1 #v[ds.castAdd 8, ⟨n + 5, by omega⟩, ⟨n + 7, by omega⟩] next

/-- The circuit above a node. -/
def memberFrom (y : Fq) : List (Bool × Fq) → {n : Nat} → (ds node : Fin n) → UserCircuit n
  | [], n, _, node => .input y (.equal (Fin.last n) node.castSucc .done)
  | (right, s) :: l, n, ds, node => levelUp s (if right then 1 else 0) ds node (memberFrom y l (ds.castAdd 9) ⟨n + 8, by omega⟩)

/-- Someone knows a leaf with a path to the root `y`. -/
def member (l : List (Bool × Fq)) (ds leaf y : Fq) : UserCircuit 0 := .constant ds (.witness leaf (memberFrom y l 0 1))

/-! ### The native reading of the circuit -/

/-- The values after one level. -/
def levelValues {n : Nat} (r : Vector Fq n) (x s b d : Fq) : Vector Fq (n + 9) :=
  (((((((((r.push s).push b).push (b * b)).push (s - x)).push (b * (s - x))).push (x + b * (s - x))).push (s + x)).push
    (s + x - (x + b * (s - x)))).push d)

theorem levelValues_old {n : Nat} (r : Vector Fq n) (x s b d : Fq) (j : Fin n) : (levelValues r x s b d)[j.castAdd 9] = r[j] := by
  have := j.isLt
  show (levelValues r x s b d)[j.val] = r[j.val]
  simp only [levelValues]
  repeat rw [Vector.getElem_push_lt (by omega)]

theorem levelValues_last {n : Nat} (r : Vector Fq n) (x s b d : Fq) : (levelValues r x s b d)[n + 8] = d := Vector.getElem_push_eq

theorem bit_of_mul {b : Fq} (h : b * b = b) : ∃ right : Bool, b = if right then 1 else 0 := by
  have : b * (b - 1) = 0 := by rw [mul_sub, h, mul_one, sub_self]
  rcases mul_eq_zero.1 this with h | h
  · exact ⟨false, h⟩
  · exact ⟨true, sub_eq_zero.1 h⟩

theorem nativeHash_1 (w : Vector Fq 3) : nativeHash 1 w = hash2 w[0] (w[1], w[2]) := rfl

theorem nativeHash_words {m : Nat} (R : Vector Fq m) (i j k : Fin m) {a b c : Fq} (hi : R[i.val] = a) (hj : R[j.val] = b) (hk : R[k.val] = c) :
    nativeHash 1 ((#v[i, j, k] : Vector (Fin m) 3).map fun t => R[t.val]) = hash2 a (b, c) := by
  rw [nativeHash_1, Vector.getElem_map, Vector.getElem_map, Vector.getElem_map, ← hi, ← hj, ← hk]
  rfl

section
variable {m : Nat} {a b : Fin m} {next : UserCircuit (m + 1)} {r : Vector Fq m} {w y : List Fq} {u v : Fq}

theorem accepts_add (ha : r[a.val] = u) (hb : r[b.val] = v) :
    (UserCircuit.arith .add a b next).Accepts r w y ↔ next.Accepts (r.push (u + v)) w y := by
  subst ha hb; exact Iff.rfl

theorem accepts_sub (ha : r[a.val] = u) (hb : r[b.val] = v) :
    (UserCircuit.arith .sub a b next).Accepts r w y ↔ next.Accepts (r.push (u - v)) w y := by
  subst ha hb; exact Iff.rfl

theorem accepts_mul (ha : r[a.val] = u) (hb : r[b.val] = v) :
    (UserCircuit.arith .mul a b next).Accepts r w y ↔ next.Accepts (r.push (u * v)) w y := by
  subst ha hb; exact Iff.rfl

theorem accepts_equal {next : UserCircuit m} (ha : r[a.val] = u) (hb : r[b.val] = v) :
    (UserCircuit.equal a b next).Accepts r w y ↔ u = v ∧ next.Accepts r w y := by
  subst ha hb; exact Iff.rfl

end

theorem levelUp_accepts {n : Nat} (s₀ b₀ : Fq) (ds node : Fin n) (next : UserCircuit (n + 9)) (r : Vector Fq n) (w y : List Fq) :
    (levelUp s₀ b₀ ds node next).Accepts r w y ↔ ∃ (s b : Fq) (w' : List Fq) (d : Fq), w = s :: b :: w' ∧ b * b = b ∧
      hash2 r[ds] (r[node] + b * (s - r[node]), s + r[node] - (r[node] + b * (s - r[node]))) = .ok d ∧
      next.Accepts (levelValues r r[node] s b d) w' y := by
  have hd := ds.isLt
  have hn := node.isLt
  have e : ∀ s b : Fq,
      let r2 := (r.push s).push b
      let r3 := r2.push (b * b)
      let r4 := r3.push (s - r[node])
      let r5 := r4.push (b * (s - r[node]))
      let r6 := r5.push (r[node] + b * (s - r[node]))
      let r7 := r6.push (s + r[node])
      let r8 := r7.push (s + r[node] - (r[node] + b * (s - r[node])))
      (r2[n + 1] = b ∧ r3[n + 2] = b * b ∧ r3[n + 1] = b) ∧ (r3[n] = s ∧ r3[node.val] = r[node]) ∧
      (r4[n + 1] = b ∧ r4[n + 3] = s - r[node]) ∧ (r5[node.val] = r[node] ∧ r5[n + 4] = b * (s - r[node])) ∧
      (r6[n] = s ∧ r6[node.val] = r[node]) ∧ (r7[n + 6] = s + r[node] ∧ r7[n + 5] = r[node] + b * (s - r[node])) ∧
      (r8[ds.val] = r[ds] ∧ r8[n + 5] = r[node] + b * (s - r[node]) ∧ r8[n + 7] = s + r[node] - (r[node] + b * (s - r[node]))) := by
    intro s b
    simp only [Fin.getElem_fin]
    refine ⟨⟨?_, ?_, ?_⟩, ⟨?_, ?_⟩, ⟨?_, ?_⟩, ⟨?_, ?_⟩, ⟨?_, ?_⟩, ⟨?_, ?_⟩, ?_, ?_, ?_⟩ <;>
      (repeat rw [Vector.getElem_push_lt (by omega)]) <;> first | rfl | exact Vector.getElem_push_eq
  have key : ∀ s b w', (UserCircuit.arith .mul ⟨n + 1, by omega⟩ ⟨n + 1, by omega⟩ <| .equal ⟨n + 2, by omega⟩ ⟨n + 1, by omega⟩ <|
      .arith .sub ⟨n, by omega⟩ (node.castAdd 3) <| .arith .mul ⟨n + 1, by omega⟩ ⟨n + 3, by omega⟩ <|
      .arith .add (node.castAdd 5) ⟨n + 4, by omega⟩ <| .arith .add ⟨n, by omega⟩ (node.castAdd 6) <|
      .arith .sub ⟨n + 6, by omega⟩ ⟨n + 5, by omega⟩ <|
      .hash 1 #v[ds.castAdd 8, ⟨n + 5, by omega⟩, ⟨n + 7, by omega⟩] next : UserCircuit (n + 2)).Accepts ((r.push s).push b) w' y ↔
      b * b = b ∧ ∃ d, hash2 r[ds] (r[node] + b * (s - r[node]), s + r[node] - (r[node] + b * (s - r[node]))) = .ok d ∧
      next.Accepts (levelValues r r[node] s b d) w' y := by
    intro s b w'
    obtain ⟨⟨e1, e2, e3⟩, ⟨e4, e5⟩, ⟨e6, e7⟩, ⟨e8, e9⟩, ⟨e10, e11⟩, ⟨e12, e13⟩, e14, e15, e16⟩ := e s b
    refine (accepts_mul e1 e1).trans ?_
    refine (accepts_equal e2 e3).trans (and_congr_right fun _ => ?_)
    refine (accepts_sub e4 e5).trans ?_
    refine (accepts_mul e6 e7).trans ?_
    refine (accepts_add e8 e9).trans ?_
    refine (accepts_add e10 e11).trans ?_
    refine (accepts_sub e12 e13).trans ?_
    refine exists_congr fun d => ?_
    have h := nativeHash_words _ (ds.castAdd 8) ⟨n + 5, by omega⟩ ⟨n + 7, by omega⟩ e14 e15 e16
    exact ⟨fun t => ⟨h.symm.trans t.1, t.2⟩, fun t => ⟨h.trans t.1, t.2⟩⟩
  constructor
  · rintro ⟨s, _, rfl, b, w', rfl, h⟩
    obtain ⟨h1, d, h2, h3⟩ := (key s b w').1 h
    exact ⟨s, b, w', d, rfl, h1, h2, h3⟩
  · rintro ⟨s, b, w', d, rfl, h1, h2, h3⟩
    exact ⟨s, _, rfl, b, w', rfl, (key s b w').2 ⟨h1, d, h2, h3⟩⟩

/-- The private values for a path. -/
def pathValues (l : List (Bool × Fq)) : List Fq := l.flatMap fun s => [s.2, if s.1 then 1 else 0]

theorem memberFrom_accepts (y₀ ds : Fq) (l : List (Bool × Fq)) : ∀ {n : Nat} (d node : Fin n) (r : Vector Fq n) (w y : List Fq), r[d] = ds →
    ((memberFrom y₀ l d node).Accepts r w y ↔ ∃ (l' : List (Bool × Fq)) (z : Fq), l'.length = l.length ∧ w = pathValues l' ∧ y = [z] ∧
      binaryRoot ds l' r[node] = .ok z) := by
  induction l with
  | nil =>
    intro n d node r w y hd
    simp only [memberFrom, UserCircuit.Accepts, List.length_nil, List.length_eq_zero_iff]
    constructor
    · rintro ⟨x, y', rfl, h1, rfl, rfl⟩
      refine ⟨[], x, rfl, rfl, rfl, ?_⟩
      have h1 : (r.push x)[n] = (r.push x)[node.val] := h1
      rw [Vector.getElem_push_eq, Vector.getElem_push_lt node.isLt] at h1
      rw [h1]; rfl
    · rintro ⟨_, z, rfl, rfl, rfl, h⟩
      refine ⟨z, [], rfl, ?_, rfl, rfl⟩
      show (r.push z)[n] = (r.push z)[node.val]
      rw [Vector.getElem_push_eq, Vector.getElem_push_lt node.isLt]
      exact (Except.ok.inj h).symm
  | cons p l ih =>
    intro n d node r w y hd
    obtain ⟨right₀, s₀⟩ := p
    have hstep : ∀ s b v w, (memberFrom y₀ l (d.castAdd 9) ⟨n + 8, by omega⟩).Accepts (levelValues r r[node] s b v) w y ↔
        ∃ (l' : List (Bool × Fq)) (z : Fq), l'.length = l.length ∧ w = pathValues l' ∧ y = [z] ∧ binaryRoot ds l' v = .ok z := by
      intro s b v w
      have := ih (d.castAdd 9) ⟨n + 8, by omega⟩ (levelValues r r[node] s b v) w y ((levelValues_old ..).trans hd)
      have e : (levelValues r r[node] s b v)[(⟨n + 8, by omega⟩ : Fin (n + 9))] = v := levelValues_last ..
      rw [e] at this
      exact this
    rw [memberFrom, levelUp_accepts, hd]
    generalize r[node] = x at *
    constructor
    · rintro ⟨s, b, w', v, rfl, h1, h2, h3⟩
      obtain ⟨l', z, e1, rfl, e3, e4⟩ := (hstep s b v w').1 h3
      obtain ⟨right, rfl⟩ := bit_of_mul h1
      refine ⟨(right, s) :: l', z, congrArg (· + 1) e1, rfl, e3, ?_⟩
      cases right with
      | false =>
        have e : x + (if false = true then 1 else 0) * (s - x) = x := by simp
        have e' : s + x - x = s := by ring
        rw [e, e'] at h2
        rw [binaryRoot, h2]
        exact e4
      | true =>
        have e : x + (if true = true then 1 else 0) * (s - x) = s := by simp
        have e' : s + x - s = x := by ring
        rw [e, e'] at h2
        rw [binaryRoot, h2]
        exact e4
    · rintro ⟨l'', z, e1, rfl, e3, e4⟩
      match l'', e1 with
      | (false, s) :: l', e1 =>
        rw [binaryRoot] at e4
        cases hx : hash2 ds (x, s) with
        | error e => rw [hx] at e4; cases e4
        | ok v =>
          rw [hx] at e4
          refine ⟨s, 0, pathValues l', v, rfl, mul_zero 0, ?_, (hstep ..).2 ⟨l', z, Nat.succ.inj e1, rfl, e3, e4⟩⟩
          rw [zero_mul, add_zero, add_sub_cancel_right, hx]
      | (true, s) :: l', e1 =>
        rw [binaryRoot] at e4
        cases hx : hash2 ds (s, x) with
        | error e => rw [hx] at e4; cases e4
        | ok v =>
          rw [hx] at e4
          refine ⟨s, 1, pathValues l', v, rfl, mul_one 1, ?_, (hstep ..).2 ⟨l', z, Nat.succ.inj e1, rfl, e3, e4⟩⟩
          rw [one_mul, add_sub_cancel, add_sub_cancel_left, hx]

theorem member_accepts (l : List (Bool × Fq)) (ds leaf y : Fq) (v z : List Fq) :
    (member l ds leaf y).Accepts #v[] v z ↔ ∃ (l' : List (Bool × Fq)) (a b : Fq), l'.length = l.length ∧
      v = a :: pathValues l' ∧ z = [b] ∧ binaryRoot ds l' a = .ok b := by
  show (∃ x w', v = x :: w' ∧ (memberFrom y l 0 1).Accepts (((#v[] : Vector Fq 0).push ds).push x) w' z) ↔ _
  constructor
  · rintro ⟨a, w', rfl, ha⟩
    obtain ⟨l', b, e1, rfl, rfl, h⟩ := (memberFrom_accepts y ds l _ _ _ _ _ rfl).1 ha
    exact ⟨l', a, b, e1, rfl, rfl, h⟩
  · rintro ⟨l', a, b, e1, rfl, rfl, h⟩
    exact ⟨a, _, rfl, (memberFrom_accepts y ds l _ _ _ _ _ rfl).2 ⟨l', b, e1, rfl, rfl, h⟩⟩

/-! ### Which variables are constants, and the size -/

theorem levelUp_noEqual {n : Nat} (s b : Fq) (ds node : Fin n) (next : UserCircuit (n + 9)) (k : Vector Bool n)
    (h : ∀ k', next.NoConstantEqual k') : (levelUp s b ds node next).NoConstantEqual k := by
  simp only [levelUp, UserCircuit.NoConstantEqual]
  refine ⟨Or.inr ?_, h _⟩
  show (((k.push true).push true).push _)[n + 1] = true
  rw [Vector.getElem_push_lt (by omega), Vector.getElem_push_eq]

theorem memberFrom_noEqual (y : Fq) (l : List (Bool × Fq)) : ∀ {n : Nat} (d node : Fin n) (k : Vector Bool n),
    (memberFrom y l d node).NoConstantEqual k := by
  induction l with
  | nil => intro n d node k; exact ⟨Or.inl Vector.getElem_push_eq, trivial⟩
  | cons p l ih => intro n d node k; exact levelUp_noEqual _ _ _ _ _ _ fun k' => ih _ _ _

/-- What is known of the variables after one level if the node is not a constant. -/
def levelVars {n : Nat} (k : Vector Bool n) : Vector Bool (n + 8) :=
  (((((((k.push true).push true).push true).push true).push true).push true).push true).push true

theorem levelVars_old {n : Nat} (k : Vector Bool n) (j : Fin n) : (levelVars k)[j.castAdd 8] = k[j] := by
  have := j.isLt
  show (levelVars k)[j.val] = k[j.val]
  simp only [levelVars]
  repeat rw [Vector.getElem_push_lt (by omega)]

theorem levelVars_new {n : Nat} (k : Vector Bool n) (i : Nat) (h1 : n ≤ i) (h2 : i < n + 8) : (levelVars k)[i] = true := by
  simp only [levelVars, Vector.getElem_push]
  split_ifs <;> first | rfl | omega

/-- The kinds of the variables, in the steps of one level. -/
theorem level_kinds {n : Nat} (k : Vector Bool n) :
    let k2 := (k.push true).push true
    let k3 := k2.push true
    let k4 := k3.push true
    let k5 := k4.push true
    let k6 := k5.push true
    let k7 := k6.push true
    k2[n + 1] = true ∧ k3[n + 2] = true ∧ k3[n + 1] = true ∧ k3[n] = true ∧ k4[n + 1] = true ∧ k4[n + 3] = true ∧ k5[n + 4] = true ∧ k6[n] = true ∧
      k7[n + 6] = true ∧ k7[n + 5] = true := by
  refine ⟨?_, ?_, ?_, ?_, ?_, ?_, ?_, ?_, ?_, ?_⟩ <;>
    (repeat rw [Vector.getElem_push_lt (by omega)]) <;> exact Vector.getElem_push_eq

theorem levelUp_noHash {n : Nat} (s b : Fq) (ds node : Fin n) (next : UserCircuit (n + 9)) (k : Vector Bool n)
    (h : next.NoConstantHash ((levelVars k).push true)) : (levelUp s b ds node next).NoConstantHash k := by
  obtain ⟨e1, -, -, e4, e5, e6, e7, e8, e9, e10⟩ := level_kinds k
  simp only [levelUp, UserCircuit.NoConstantHash, Fin.getElem_fin, e1, e4, e5, e6, e7, e8, e9, e10, Bool.true_or, Bool.or_true]
  exact ⟨⟨⟨n + 5, by omega⟩, by simp, levelVars_new k (n + 5) (by omega) (by omega)⟩, h⟩

theorem memberFrom_noHash (y : Fq) (l : List (Bool × Fq)) : ∀ {n : Nat} (d node : Fin n) (k : Vector Bool n),
    (memberFrom y l d node).NoConstantHash k := by
  induction l with
  | nil => intro n d node k; trivial
  | cons p l ih => intro n d node k; exact levelUp_noHash _ _ _ _ _ _ (ih _ _ _)

theorem levelUp_constraints {n : Nat} (s b : Fq) (ds node : Fin n) (next : UserCircuit (n + 9)) (k : Vector Bool n) (hd : k[ds] = false) :
    (levelUp s b ds node next).constraints k = 273 + next.constraints ((levelVars k).push true) := by
  obtain ⟨e1, e2, e3, e4, e5, e6, e7, e8, e9, e10⟩ := level_kinds k
  have hc : UserCircuit.hashCost 1 #v[ds.castAdd 8, (⟨n + 5, by omega⟩ : Fin (n + 8)), ⟨n + 7, by omega⟩] (levelVars k) = 270 := by
    have : (#v[ds.castAdd 8, (⟨n + 5, by omega⟩ : Fin (n + 8)), ⟨n + 7, by omega⟩] : Vector _ 3).toList.countP
        (fun j => (levelVars k)[j]) = 2 := by
      have h0 : (levelVars k)[ds.val] = false := (levelVars_old k ds).trans hd
      simp only [Vector.toList_mk, List.countP_cons, List.countP_nil, Fin.getElem_fin, Fin.val_castAdd, h0,
        levelVars_new k (n + 5) (by omega) (by omega), levelVars_new k (n + 7) (by omega) (by omega)]
      rfl
    unfold UserCircuit.hashCost
    rw [this]
    rfl
  simp only [levelUp, UserCircuit.constraints, R1cs.ArithOp.cost, Fin.getElem_fin, e1, e2, e3, e4, e5, e6, e7, e8, e9, e10, Bool.true_or,
    Bool.or_true, if_true]
  have hc' := hc
  unfold levelVars at hc'
  rw [hc']
  unfold levelVars
  omega

theorem memberFrom_constraints (y : Fq) (l : List (Bool × Fq)) : ∀ {n : Nat} (d node : Fin n) (k : Vector Bool n), k[d] = false →
    (memberFrom y l d node).constraints k = 273 * l.length + 1 := by
  induction l with
  | nil =>
    intro n d node k hd
    have : (k.push true)[Fin.last n] = true := Vector.getElem_push_eq
    rw [memberFrom, UserCircuit.constraints, UserCircuit.constraints, this]
    rfl
  | cons p l ih =>
    intro n d node k hd
    have h' : ((levelVars k).push true)[d.castAdd 9] = false := by
      show ((levelVars k).push true)[d.val] = false
      rw [Vector.getElem_push_lt (by omega)]
      exact (levelVars_old k d).trans hd
    rw [memberFrom, levelUp_constraints _ _ _ _ _ _ hd, ih _ _ _ h', List.length_cons]
    ring

theorem memberFrom_publics (y : Fq) (l : List (Bool × Fq)) : ∀ {n : Nat} (d node : Fin n), (memberFrom y l d node).publicValues = [y] := by
  induction l with
  | nil => intro n d node; rfl
  | cons s l ih => intro n d node; exact ih _ _

theorem memberFrom_privates (y : Fq) (l : List (Bool × Fq)) : ∀ {n : Nat} (d node : Fin n),
    (memberFrom y l d node).privateValues = pathValues l := by
  induction l with
  | nil => intro n d node; rfl
  | cons s l ih =>
    intro n d node
    exact congrArg (fun t => s.2 :: (if s.1 then 1 else 0) :: t) (ih _ _)

theorem memberFrom_blank (y y' : Fq) (l : List (Bool × Fq)) : ∀ (l' : List (Bool × Fq)), l'.length = l.length → ∀ {n : Nat} (d node : Fin n),
    (memberFrom y l d node).blank = (memberFrom y' l' d node).blank := by
  induction l with
  | nil =>
    intro l' h n d node
    rw [List.length_eq_zero_iff.1 h]
    rfl
  | cons s l ih =>
    intro l' h n d node
    match l', h with
    | s' :: l', h =>
      simp only [memberFrom, levelUp, UserCircuit.blank]
      rw [ih l' (Nat.succ.inj h)]

theorem member_publics (l : List (Bool × Fq)) (ds x y : Fq) : (member l ds x y).publicValues = [y] := memberFrom_publics y l _ _
theorem member_noHash (l : List (Bool × Fq)) (ds x y : Fq) : (member l ds x y).NoConstantHash #v[] := memberFrom_noHash y l _ _ _
theorem member_noEqual (l : List (Bool × Fq)) (ds x y : Fq) : (member l ds x y).NoConstantEqual #v[] := memberFrom_noEqual y l _ _ _

theorem member_fits {l : List (Bool × Fq)} {d : Domain Fq} (h : 273 * l.length + 3 ≤ d.size) (ds x y : Fq) : Fits d (member l ds x y) := by
  have e2 : (member l ds x y).constraints #v[] = 273 * l.length + 1 := memberFrom_constraints y l _ _ _ rfl
  unfold Fits
  rw [member_publics, e2]
  exact h

theorem member_blank {l l' : List (Bool × Fq)} (h : l.length = l'.length) (ds x y x' y' : Fq) :
    (member l ds x y).blank = (member l' ds x' y').blank := by
  simp only [member, UserCircuit.blank]
  rw [memberFrom_blank y y' l l' h.symm]

theorem member_holds {l : List (Bool × Fq)} {ds x y : Fq} (h : binaryRoot ds l x = .ok y) :
    (member l ds x y).Accepts #v[] (member l ds x y).privateValues (member l ds x y).publicValues := by
  have hp : (member l ds x y).privateValues = x :: pathValues l := congrArg (x :: ·) (memberFrom_privates y l _ _)
  rw [hp, member_publics]
  exact (member_accepts ..).2 ⟨l, x, y, rfl, rfl, rfl, h⟩

/-! ### The theorems -/

/-- **C101, the circuit.** For every depth: the circuit has 273 constraints per level and one more, the same for all leaves and positions, and the
public root `y` can be completed to a satisfying assignment exactly when some leaf at some position has this root. -/
theorem C101_circuit (l : List (Bool × Fq)) (ds leaf y₀ : Fq) (setup : Bool) :
    ∃ cs, (member l ds leaf y₀).generate #v[] (CS.new Fq setup) = .ok cs ∧ cs.constraints.length = 273 * l.length + 1 ∧
      (∀ (l' : List (Bool × Fq)) (leaf' y' : Fq) (setup' : Bool) (cs' : CS Fq), l'.length = l.length →
        (member l' ds leaf' y').generate #v[] (CS.new Fq setup') = .ok cs' → cs'.constraints = cs.constraints) ∧
      ∀ y : Fq, (∃ σ, Satisfies σ cs ∧ σ (.input 1) = y) ↔
        ∃ (l' : List (Bool × Fq)) (leaf' : Fq), l'.length = l.length ∧ binaryRoot ds l' leaf' = .ok y := by
  obtain ⟨cs, h⟩ := (C95_runs (member l ds leaf y₀) setup).2 (member_noHash ..)
  refine ⟨cs, h, (C95_size _ _ _ h).1.trans (memberFrom_constraints y₀ l _ _ _ rfl),
    fun l' x' y' s' cs' e h' => (C95_same _ _ (member_blank e ..) _ _ _ _ h' h).1, fun y => ?_⟩
  have hl := C95_language _ setup cs h (member_noEqual ..)
  have hpub : ∀ σ, (member l ds leaf y₀).publicOf σ = [σ (.input 1)] := by
    intro σ
    rw [UserCircuit.publicOf, member_publics]
    rfl
  constructor
  · rintro ⟨σ, hσ, rfl⟩
    obtain ⟨l', a, b, e1, -, e, ha⟩ := (member_accepts ..).1 ((hl _ _).1 ⟨σ, hσ, rfl, hpub σ⟩)
    cases e
    exact ⟨l', a, e1, ha⟩
  · rintro ⟨l', a, e1, ha⟩
    obtain ⟨σ, h1, -, h2⟩ := (hl _ _).2 ((member_accepts ..).2 ⟨l', a, y, e1, rfl, rfl, ha⟩)
    rw [hpub] at h2
    cases h2
    exact ⟨σ, h1, rfl⟩

variable {G1 G2 GT : Type} [AddCommGroup G1] [Module Fq G1] [AddCommGroup G2] [Module Fq G2] [AddCommGroup GT] [Module Fq GT]

/-- **C101, proofs.** One key for all leaves of a tree of this depth; the proof for any leaf is accepted; a strategy that convinces the verifier
of the root `y` with too many secrets contains a leaf and a path to this root. -/
theorem C101_proofs [DecidableEq GT] (e : G1 →ₗ[Fq] G2 →ₗ[Fq] GT) (g1 : G1) (g2 : G2) (he : e g1 g2 ≠ 0) (d : Domain Fq) (hd : d.Good)
    (depth : Nat) (hs : 273 * depth + 3 ≤ d.size) (h4 : 4 ≤ d.size) (g : Fq) (hg : d.Coset g) (ds : Fq) :
    (∀ w : Secrets Fq, w.Usable → ∃ pk,
      (∀ l x₀ y₀, l.length = depth → setupUser d g1 g2 w (member l ds x₀ y₀) = .ok pk) ∧
      ∀ l leaf y, l.length = depth → binaryRoot ds l leaf = .ok y → ∀ r s, ∃ p,
        proveUser true d g pk r s (member l ds leaf y) = .ok p ∧ verify e pk.vk [y] p = .ok true) ∧
    ∀ (S : Strategy Fq) (l₀ : List (Bool × Fq)) (x₀ y₀ y : Fq), l₀.length = depth →
      (((3 * d.size - 2) * q ^ 4 : Nat) : ENat) < (AcceptsUser e g1 g2 d (member l₀ ds x₀ y₀) S [y]).encard →
      ∃ l : List (Bool × Fq), l.length = depth ∧ binaryRoot ds l (S.c.l.getD 0 0) = .ok y ∧
        ∀ s ∈ l, s.2 ∈ 0 :: S.c.l ∧ (if s.1 then 1 else 0) ∈ 0 :: S.c.l := by
  constructor
  · intro w hw
    have h0 : (List.replicate depth (false, (0 : Fq))).length = depth := List.length_replicate
    obtain ⟨pk, hpk⟩ := C96_setup d hd g1 g2 w hw (member (List.replicate depth (false, 0)) ds 0 0) (member_noHash ..)
      (member_fits (by rw [h0]; exact hs) _ _ _)
    refine ⟨pk, fun l x₀ y₀ h => hpk _ (member_blank (h.trans h0.symm) ..), fun l x y hl hxy r s => ?_⟩
    obtain ⟨pk', p, h1, h2, h3⟩ := C96_complete e g1 g2 he d hd g hg w hw _ _ (member_blank (h0.trans hl.symm) ds 0 0 x y) (member_noHash ..)
      (member_noEqual ..) (member_fits (by rw [hl]; exact hs) _ _ _) (member_holds hxy) true r s
    rw [hpk _ rfl] at h1
    cases h1
    rw [member_publics] at h3
    exact ⟨p, h2, h3⟩
  · intro S l₀ x₀ y₀ y hl h
    have := C96_knowledge e g1 g2 he d hd h4 _ (member_noHash l₀ ds x₀ y₀) (member_noEqual l₀ ds x₀ y₀)
      (member_fits (by rw [hl]; exact hs) _ _ _) S [y] h
    obtain ⟨l, a, b, h1, h2, h3, h5⟩ := (member_accepts ..).1 this
    cases h3
    have e1 : (member l₀ ds x₀ y₀).privateAt #v[] 0 = 0 :: (memberFrom y₀ l₀ 0 1).privateAt #v[false, true] 1 := rfl
    rw [e1, List.map_cons, List.cons.injEq] at h2
    obtain ⟨rfl, h2⟩ := h2
    refine ⟨l, h1.trans hl, h5, fun s hs => ?_⟩
    have mem : ∀ x ∈ pathValues l, x ∈ 0 :: S.c.l := by
      intro x hx
      rw [← h2] at hx
      obtain ⟨j, -, rfl⟩ := List.mem_map.1 hx
      by_cases hj : j < S.c.l.length
      · rw [List.getD_eq_getElem _ _ hj]
        exact List.mem_cons_of_mem _ (List.getElem_mem _)
      · rw [List.getD_eq_default _ _ (by omega)]
        exact List.mem_cons_self
    refine ⟨mem _ ?_, mem _ ?_⟩ <;> exact List.mem_flatMap.2 ⟨s, hs, by simp⟩

/-- **C101, debug builds.** The prover panics if the leaf and the path do not give the root. -/
theorem C101_debug (d : Domain Fq) (g : Fq) (pk : ProvingKey G1 G2) (r s : Fq) (l : List (Bool × Fq)) (ds leaf y : Fq)
    (h : binaryRoot ds l leaf ≠ .ok y) : proveUser true d g pk r s (member l ds leaf y) = .error .assertFailed := by
  refine C96_debug d g pk r s _ (member_noHash ..) (member_noEqual ..) fun ha => ?_
  have hp : (member l ds leaf y).privateValues = leaf :: pathValues l := congrArg (leaf :: ·) (memberFrom_privates y l _ _)
  rw [hp, member_publics] at ha
  obtain ⟨l', a, b, e1, e2, e3, e4⟩ := (member_accepts ..).1 ha
  cases e3
  rw [List.cons.injEq] at e2
  obtain ⟨rfl, e2⟩ := e2
  have inj : ∀ l l' : List (Bool × Fq), pathValues l = pathValues l' → l = l' := by
    intro l
    induction l with
    | nil =>
      intro l' h
      cases l' with
      | nil => rfl
      | cons s l' => cases h
    | cons s l ih =>
      intro l' h
      cases l' with
      | nil => cases h
      | cons s' l' =>
        obtain ⟨p, a⟩ := s
        obtain ⟨p', a'⟩ := s'
        have h : a :: (if p then 1 else 0) :: pathValues l = a' :: (if p' then 1 else 0) :: pathValues l' := h
        rw [List.cons.injEq, List.cons.injEq] at h
        obtain ⟨rfl, hb, ht⟩ := h
        rw [ih l' ht]
        cases p <;> cases p' <;> simp at hb ⊢
  rw [inj _ _ e2] at h
  exact h e4

/-- **C101, what is hidden.** The proofs for two leaves under the same root, wherever they are, are the same, each for some random choices of
the prover, by a bijection of these. -/
theorem C101_hidden (g1 : G1) (g2 : G2) (d : Domain Fq) (hd : d.Good) (g : Fq) (hg : d.Coset g) (w : Secrets Fq) (hw : w.Usable)
    (l l' : List (Bool × Fq)) (ds leaf leaf' y : Fq) (hl : l.length = l'.length) (hs : 273 * l.length + 3 ≤ d.size)
    (h : binaryRoot ds l leaf = .ok y) (h' : binaryRoot ds l' leaf' = .ok y) (debug : Bool) :
    ∃ pk, setupUser d g1 g2 w (member l ds 0 0) = .ok pk ∧ ∃ f : Fq × Fq → Fq × Fq, Function.Bijective f ∧ ∀ r s,
      ∃ p, proveUser debug d g pk r s (member l ds leaf y) = .ok p ∧
        proveUser debug d g pk (f (r, s)).1 (f (r, s)).2 (member l' ds leaf' y) = .ok p :=
  C96_indistinguishable g1 g2 d hd g hg w hw _ _ _ (member_blank rfl ..) (member_blank hl ..) (member_noHash ..) (member_noEqual ..)
    (member_fits hs _ _ _) ((member_publics ..).trans (member_publics ..).symm) (member_holds h) (member_holds h') debug

/-- **C101, binding.** Two different leaves, or siblings, at the same position under one root show a collision of `hash_2`. -/
theorem C101_binding (ds : Fq) (l l' : List (Bool × Fq)) (leaf leaf' y : Fq) (hp : l.map Prod.fst = l'.map Prod.fst)
    (h : binaryRoot ds l leaf = .ok y) (h' : binaryRoot ds l' leaf' = .ok y) (hne : (leaf, l) ≠ (leaf', l')) :
    ∃ p p' : Fq × Fq, p ≠ p' ∧ ∃ d, hash2 ds p = .ok d ∧ hash2 ds p' = .ok d := by
  induction l generalizing l' leaf leaf' with
  | nil =>
    obtain rfl : l' = [] := List.map_eq_nil_iff.1 hp.symm
    have e := Except.ok.inj (h.trans h'.symm)
    exact absurd (by rw [e]) hne
  | cons t l ih =>
    match l', hp with
    | t' :: l', hp =>
      obtain ⟨right, s⟩ := t
      obtain ⟨right', s'⟩ := t'
      rw [List.map_cons, List.map_cons, List.cons.injEq] at hp
      obtain ⟨rfl, hp⟩ := hp
      have go : ∀ (f : Fq → Fq → Fq × Fq), (∀ a b c d, f a b = f c d → a = c ∧ b = d) →
          (do binaryRoot ds l (← hash2 ds (f leaf s))) = .ok y → (do binaryRoot ds l' (← hash2 ds (f leaf' s'))) = .ok y →
          ∃ p p' : Fq × Fq, p ≠ p' ∧ ∃ d, hash2 ds p = .ok d ∧ hash2 ds p' = .ok d := by
        intro f hf k k'
        obtain ⟨d, hd⟩ := C03_hash_2_total ds (f leaf s)
        obtain ⟨d', hd'⟩ := C03_hash_2_total ds (f leaf' s')
        rw [hd, ok_bind] at k
        rw [hd', ok_bind] at k'
        by_cases e : (d, l) = (d', l')
        · rw [Prod.mk.injEq] at e
          obtain ⟨rfl, rfl⟩ := e
          refine ⟨f leaf s, f leaf' s', fun e => hne ?_, d, hd, hd'⟩
          obtain ⟨rfl, rfl⟩ := hf _ _ _ _ e
          rfl
        · exact ih l' d d' hp k k' e
      cases right with
      | false => exact go (fun a b => (a, b)) (fun a b c d e => Prod.mk.inj e) h h'
      | true => exact go (fun a b => (b, a)) (fun a b c d e => (Prod.mk.inj e).symm) h h'

/-! ### The hypotheses are met -/

theorem binaryRoot_total (ds : Fq) (l : List (Bool × Fq)) : ∀ x, ∃ y, binaryRoot ds l x = .ok y := by
  induction l with
  | nil => exact fun x => ⟨x, rfl⟩
  | cons p l ih =>
    intro x
    obtain ⟨right, s⟩ := p
    cases right with
    | false =>
      obtain ⟨z, hz⟩ := C03_hash_2_total ds (x, s)
      obtain ⟨y, hy⟩ := ih z
      exact ⟨y, by rw [binaryRoot, hz]; exact hy⟩
    | true =>
      obtain ⟨z, hz⟩ := C03_hash_2_total ds (s, x)
      obtain ⟨y, hy⟩ := ih z
      exact ⟨y, by rw [binaryRoot, hz]; exact hy⟩

/-- A leaf three levels below its root, a key and a proof. -/
example (w : Secrets Fq) (hw : w.Usable) (ds leaf a b c : Fq) : ∃ y pk p, binaryRoot ds [(true, a), (false, b), (true, c)] leaf = .ok y ∧
    setupUser domain4096 (1 : Fq) (1 : Fq) w (member [(false, 0), (false, 0), (false, 0)] ds 0 0) = .ok pk ∧
    proveUser true domain4096 (22 : Nat) pk 17 19 (member [(true, a), (false, b), (true, c)] ds leaf y) = .ok p ∧
    verify (LinearMap.mul Fq Fq) pk.vk [y] p = .ok true := by
  obtain ⟨y, hy⟩ := binaryRoot_total ds [(true, a), (false, b), (true, c)] leaf
  obtain ⟨pk, h1, h2⟩ := (C101_proofs (LinearMap.mul Fq Fq) 1 1 (by simp) domain4096 domain4096_good 3 (by decide +kernel) (by decide +kernel) _ coset22 ds).1 w hw
  obtain ⟨p, h3, h4⟩ := h2 [(true, a), (false, b), (true, c)] leaf y rfl hy 17 19
  exact ⟨y, pk, p, hy, h1 _ 0 0 rfl, h3, h4⟩

/-- The two leaves below one node: the same root, at different positions. -/
example (ds a b s : Fq) : ∃ y, binaryRoot ds [(false, b), (true, s)] a = .ok y ∧ binaryRoot ds [(true, a), (true, s)] b = .ok y := by
  obtain ⟨z, hz⟩ := C03_hash_2_total ds (a, b)
  obtain ⟨y, hy⟩ := binaryRoot_total ds [(true, s)] z
  exact ⟨y, by rw [binaryRoot, hz, ok_bind, hy], by rw [binaryRoot, hz, ok_bind, hy]⟩

/-- There are such collisions, as pairs outnumber digests: two different leaves with siblings under one root. -/
example (ds : Fq) : ∃ (a b s t y : Fq), (a, [(false, s)]) ≠ (b, [(false, t)]) ∧ binaryRoot ds [(false, s)] a = .ok y ∧
    binaryRoot ds [(false, t)] b = .ok y := by
  choose f hf using C03_hash_2_total ds
  have hcard : Fintype.card Fq < Fintype.card (Fq × Fq) := by
    rw [Fintype.card_prod]
    exact lt_mul_of_one_lt_left Fintype.card_pos Fintype.one_lt_card
  obtain ⟨⟨a, s⟩, ⟨b, t⟩, hne, he⟩ := Fintype.exists_ne_map_eq_of_card_lt f hcard
  refine ⟨a, b, s, t, f (a, s), fun e => hne ?_, ?_, ?_⟩
  · rw [Prod.mk.injEq, List.cons.injEq, Prod.mk.injEq] at e
    rw [e.1, e.2.1.2]
  · rw [binaryRoot, hf, ok_bind, binaryRoot]
  · rw [binaryRoot, hf, ok_bind, binaryRoot, he]

/-- A strategy that convinces the verifier with enough secrets. -/
example (ds leaf a b c : Fq) : ∃ y S, (((3 * domain4096.size - 2) * q ^ 4 : Nat) : ENat) <
    (AcceptsUser (LinearMap.mul Fq Fq) 1 1 domain4096 (member [(true, a), (false, b), (true, c)] ds leaf y) S [y]).encard := by
  obtain ⟨y, hy⟩ := binaryRoot_total ds [(true, a), (false, b), (true, c)] leaf
  obtain ⟨S, h1, -⟩ := C96_honest (LinearMap.mul Fq Fq) 1 1 (by simp) domain4096 domain4096_good _ coset22 _
    (member_noHash ..) (member_noEqual ..) (member_fits (l := [(true, a), (false, b), (true, c)]) (show 273 * 3 + 3 ≤ domain4096.size by decide +kernel) _ _ _) (member_holds hy) 17 19
  refine ⟨y, S, ?_⟩
  rw [member_publics] at h1
  rw [h1, usable_encard, Nat.cast_lt]
  exact bound_lt q (3 * domain4096.size - 2) (by decide +kernel) (by decide +kernel)

end Poseidon
