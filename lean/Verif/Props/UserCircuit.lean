import Verif.Proofs.UserCircuit
import Verif.Props.Preimage

/-!
# Property C95: circuits built from the circuit hashes

`UserCircuit` (Model/UserCircuit.lean) is any program that allocates values, hashes variables (also results of earlier hashes),
adds, subtracts and multiplies them, and enforces equalities.  `Accepts` (Spec/UserCircuit.lean) is the same program read natively.
-/

namespace Poseidon

open R1cs

theorem wellFormed_new (s : Bool) : WellFormed (CS.new Fq s) := fun _ hc => absurd hc List.not_mem_nil

theorem known_nil (cs : CS Fq) : ∀ v ∈ (#v[] : Vector (FpVar Fq) 0), v.Known cs := fun v hv => absurd hv (by simp)

theorem map_nil {α β : Type} (f : α → β) : (#v[] : Vector α 0).map f = #v[] := by
  ext j hj
  exact absurd hj (Nat.not_lt_zero j)

theorem link_new {c : UserCircuit 0} {s : Bool} {cs : CS Fq} (h : c.generate #v[] (CS.new Fq s) = .ok cs) :
    c.Link #v[] (CS.new Fq s) cs := UserCircuit.link c _ _ _ (known_nil _) (wellFormed_new s) h

/-- **C95.** Private values `w` and public values `y` can be completed to an assignment that satisfies the constraints exactly
when the native computation accepts them. -/
theorem C95_language (c : UserCircuit 0) (setup : Bool) (cs : CS Fq) (h : c.generate #v[] (CS.new Fq setup) = .ok cs)
    (hne : c.NoConstantEqual #v[]) (w y : List Fq) :
    (∃ σ, Satisfies σ cs ∧ c.privateOf σ = w ∧ c.publicOf σ = y) ↔ c.Accepts #v[] w y := by
  obtain ⟨-, -, -, -, -, -, l7, l8, -⟩ := link_new h
  simp only [map_nil] at l7 l8
  constructor
  · rintro ⟨σ, hσ, rfl, rfl⟩
    exact l7 σ hσ hne
  · intro ha
    obtain ⟨τ, h1, -, h2, h3⟩ := l8 (fun v => if v = .one then 1 else 0) w y ⟨rfl, fun _ hc => absurd hc List.not_mem_nil⟩ ha
    exact ⟨τ, h1, h2, h3⟩

/-- **C95, no free witness.** Everything else in a satisfying assignment is determined. -/
theorem C95_unique (c : UserCircuit 0) (setup : Bool) (cs : CS Fq) (h : c.generate #v[] (CS.new Fq setup) = .ok cs)
    (σ τ : R1cs.Variable → Fq) (hσ : Satisfies σ cs) (hτ : Satisfies τ cs) (h0 : σ (.input 0) = τ (.input 0))
    (hw : c.privateOf σ = c.privateOf τ) (hy : c.publicOf σ = c.publicOf τ) :
    ∀ v : R1cs.Variable, v.Known cs → σ v = τ v := by
  obtain ⟨-, -, -, -, -, -, -, -, l9⟩ := link_new h
  simp only [map_nil] at l9
  refine l9 σ τ hσ hτ ?_ hw hy
  intro v hv
  cases v with
  | one => rw [hσ.1, hτ.1]
  | input i =>
    have hi : i < 1 := hv
    obtain rfl : i = 0 := by omega
    exact h0
  | witness i => exact absurd hv (Nat.not_lt_zero i)

/-- **C95, panics.** With or without values, synthesis panics exactly if some hash gets constants only. -/
theorem C95_runs (c : UserCircuit 0) (setup : Bool) :
    (∃ cs, c.generate #v[] (CS.new Fq setup) = .ok cs) ↔ c.NoConstantHash #v[] := by
  constructor
  · rintro ⟨cs, h⟩
    have := UserCircuit.noConstantHash_of_ok c _ _ _ h
    rwa [map_nil] at this
  · intro hn
    cases setup with
    | true => exact UserCircuit.generate_setup c _ _ (known_nil _) rfl (by rw [map_nil]; exact hn)
    | false =>
      obtain ⟨cs, h, -⟩ := UserCircuit.generate_prove c #v[] #v[] (CS.new Fq false) ⟨rfl, rfl⟩ rfl (known_nil _)
        (fun j h => absurd h (Nat.not_lt_zero j)) (by rw [map_nil]; exact hn)
      exact ⟨cs, h⟩

/-- **C95, the prover.** The prover's run stores the values of the program, assigns every witness, and what it stores satisfies
the constraints exactly when the native computation accepts these values. -/
theorem C95_prover (c : UserCircuit 0) (cs : CS Fq) (h : c.generate #v[] (CS.new Fq false) = .ok cs) :
    cs.instanceAssignment = 1 :: c.publicValues ∧ cs.witnessAssignment.length = cs.numWitness ∧
    ∀ σ, Stored cs σ → c.privateOf σ = c.privateValues ∧ c.publicOf σ = c.publicValues ∧
      (c.NoConstantEqual #v[] → (Satisfies σ cs ↔ c.Accepts #v[] c.privateValues c.publicValues)) := by
  obtain ⟨cs', h1, h2, h3, h4⟩ := UserCircuit.generate_prove c #v[] #v[] (CS.new Fq false) ⟨rfl, rfl⟩ rfl (known_nil _)
    (fun j h => absurd h (Nat.not_lt_zero j)) (UserCircuit.noConstantHash_of_ok c _ _ _ h)
  rw [h] at h1
  cases h1
  have hia : cs.instanceAssignment = 1 :: c.publicValues := h3
  refine ⟨hia, h2.2, fun σ hσ => ?_⟩
  obtain ⟨k1, k2, k3⟩ := h4 σ hσ
  rw [map_nil] at k2 k3
  refine ⟨k2, ?_, fun hne => (k3 hne).trans ?_⟩
  · apply List.ext_getElem
    · simp [UserCircuit.publicOf, UserCircuit.publicsOf]
    · intro j hj hj'
      simp only [UserCircuit.publicOf, UserCircuit.publicsOf, List.getElem_map, List.getElem_range]
      apply hσ.2.1
      rw [hia, Nat.add_comm, List.getElem?_cons_succ, List.getElem?_eq_getElem hj']
  · exact ⟨fun h => h.2, fun h => ⟨⟨hσ.1, fun _ hc => absurd hc List.not_mem_nil⟩, h⟩⟩

/-- **C95, one circuit.** The constraint system does not depend on the values, or on the mode: programs that differ in their
values only have the same. -/
theorem C95_same (c d : UserCircuit 0) (hcd : c.blank = d.blank) (s s' : Bool) (cs cs' : CS Fq)
    (h : c.generate #v[] (CS.new Fq s) = .ok cs) (h' : d.generate #v[] (CS.new Fq s') = .ok cs') :
    cs.constraints = cs'.constraints ∧ cs.numInstance = cs'.numInstance ∧ cs.numWitness = cs'.numWitness := by
  have e := UserCircuit.generate_shape c _ _ _ h
  have e' := UserCircuit.generate_shape d _ _ _ h'
  rw [map_nil] at e e'
  have k2 : ∀ s : Bool, (CS.new Fq s).shape = ⟨true, 1, 0, [], [], []⟩ := fun _ => rfl
  rw [k2] at e e'
  rw [hcd, e'] at e
  have : cs'.shape = cs.shape := Except.ok.inj e
  have k3 : cs.shape.constraints = cs'.shape.constraints := by rw [this]
  have k4 : cs.shape.numInstance = cs'.shape.numInstance := by rw [this]
  have k5 : cs.shape.numWitness = cs'.shape.numWitness := by rw [this]
  exact ⟨k3, k4, k5⟩

/-- **C95, size.** -/
theorem C95_size (c : UserCircuit 0) (s : Bool) (cs : CS Fq) (h : c.generate #v[] (CS.new Fq s) = .ok cs) :
    cs.constraints.length = c.constraints #v[] ∧ cs.numWitness = c.witnesses #v[] ∧
      cs.numInstance = 1 + c.publicValues.length := by
  obtain ⟨-, -, -, l4, l5, l6, -, -, -⟩ := link_new h
  rw [map_nil] at l5 l6
  exact ⟨l6.trans (Nat.zero_add _), l5.trans (Nat.zero_add _), l4⟩

/-- **C95, inside a larger circuit.** The same holds for the part of a circuit that is built with these calls: `cs` is
whatever was there before, `vars` are variables of it. -/
theorem C95_inside {n : Nat} (c : UserCircuit n) (vars : Vector (FpVar Fq) n) (cs cs' : CS Fq) (hw : WellFormed cs)
    (hk : ∀ v ∈ vars, v.Known cs) (h : c.generate vars cs = .ok cs') (hne : c.NoConstantEqual (vars.map FpVar.isVar)) :
    (∀ σ, Satisfies σ cs' → Satisfies σ cs ∧ ∃ w y, c.Accepts (vars.map (FpVar.eval σ)) w y) ∧
    (∀ σ w y, Satisfies σ cs → c.Accepts (vars.map (FpVar.eval σ)) w y →
      ∃ τ, Satisfies τ cs' ∧ ∀ v : R1cs.Variable, v.Known cs → σ v = τ v) := by
  have l := UserCircuit.link c vars cs cs' hk hw h
  refine ⟨fun σ hσ => ⟨hσ.of_prefix l.pre, _, _, l.sound σ hσ hne⟩, fun σ w y hσ ha => ?_⟩
  obtain ⟨τ, h1, h2, -, -⟩ := l.exist σ w y hσ ha
  exact ⟨τ, h1, h2⟩

/-- **C95, why equalities between constants are excepted.** They are not checked (`EqGadget` of the library): this circuit
claims `1 = 2` and its constraints are satisfied. -/
theorem C95_constants :
    let c : UserCircuit 0 := .constant 1 (.constant 2 (.equal 0 1 .done))
    ∃ cs, c.generate #v[] (CS.new Fq false) = .ok cs ∧ (∃ σ, Satisfies σ cs) ∧ ∀ w y, ¬ c.Accepts #v[] w y := by
  refine ⟨CS.new Fq false, rfl, ⟨fun _ => 1, rfl, fun _ hc => absurd hc List.not_mem_nil⟩, ?_⟩
  rintro w y ⟨h, -⟩
  have h : (1 : Fq) = 2 := h
  have : (1 : Fq) = 0 := by linear_combination -h
  exact one_ne_zero this

/-! ### The circuit of the test-suite is one of them -/

/-- `PreimageCircuit` as a `UserCircuit`. -/
def preimageUser (c : PreimageCircuit) : UserCircuit 0 :=
  .witness c.preimages[0] <| .witness c.preimages[1] <| .witness c.preimages[2] <| .witness c.preimages[3] <|
  .witness c.preimages[4] <| .witness c.preimages[5] <| .witness c.preimages[6] <|
  .constant testDomainSep <|
  .input c.hashOutputs[0] <| .input c.hashOutputs[1] <| .input c.hashOutputs[2] <| .input c.hashOutputs[3] <|
  .input c.hashOutputs[4] <| .input c.hashOutputs[5] <| .input c.hashOutputs[6] <|
  .hash 0 #v[7, 0] <| .equal 8 15 <|
  .hash 1 #v[7, 0, 1] <| .equal 9 16 <|
  .hash 2 #v[7, 0, 1, 2] <| .equal 10 17 <|
  .hash 3 #v[7, 0, 1, 2, 3] <| .equal 11 18 <|
  .hash 4 #v[7, 0, 1, 2, 3, 4] <| .equal 12 19 <|
  .hash 5 #v[7, 0, 1, 2, 3, 4, 5] <| .equal 13 20 <|
  .hash 6 #v[7, 0, 1, 2, 3, 4, 5, 6] <| .equal 14 21 .done

theorem generate_block {n : Nat} (i : Fin 7) (words : Vector (Fin n) (i.val + 2)) (a b : Fin (n + 1)) (hb : b = Fin.last n)
    (next : UserCircuit (n + 1)) (vars : Vector (FpVar Fq) n) (cs : CS Fq) (x : Vector (FpVar Fq) (i.val + 2)) (o : FpVar Fq)
    (hx : ∀ j (h : j < i.val + 2), vars[words[j]] = x[j]) (ho : ∀ d, (vars.push d)[a] = o) (l : List Block)
    (hl : ∀ d cs, next.generate (vars.push d) cs = runBlocks l cs) :
    (UserCircuit.hash i words (.equal a b next)).generate vars cs = runBlocks (⟨i, x, o⟩ :: l) cs := by
  have hw : (words.map fun k => vars[k]) = x := by
    ext j hj
    rw [Vector.getElem_map]
    exact hx j hj
  subst hb
  rw [UserCircuit.generate, hw, callHash_eq, runBlocks, Block.run, bind_assoc]
  congr 1
  funext r
  obtain ⟨d, cs1⟩ := r
  dsimp only
  rw [UserCircuit.generate, ho, hl]
  have : (vars.push d)[Fin.last n] = d := Vector.getElem_push_eq
  rw [this]
  rfl

/-- **C95.** The circuit of the test-suite, for which the keys are shipped, is one of these circuits. -/
theorem C95_preimage (c : PreimageCircuit) (s : Bool) :
    (preimageUser c).generate #v[] (CS.new Fq s) = generateConstraints c (CS.new Fq s) := by
  have ext2 : ∀ {n : Nat} {P : (j : Nat) → j < n → Prop}, (∀ j : Fin n, P j.val j.isLt) → ∀ j h, P j h := fun h j hj => h ⟨j, hj⟩
  have start : ∀ next : UserCircuit 15, (UserCircuit.witness c.preimages[0] <| .witness c.preimages[1] <|
      .witness c.preimages[2] <| .witness c.preimages[3] <| .witness c.preimages[4] <| .witness c.preimages[5] <|
      .witness c.preimages[6] <| .constant testDomainSep <| .input c.hashOutputs[0] <| .input c.hashOutputs[1] <|
      .input c.hashOutputs[2] <| .input c.hashOutputs[3] <| .input c.hashOutputs[4] <| .input c.hashOutputs[5] <|
      .input c.hashOutputs[6] next : UserCircuit 0).generate #v[] (CS.new Fq s) =
      next.generate #v[preVar s (fun i => c.preimages[i]) 0, preVar s (fun i => c.preimages[i]) 1,
        preVar s (fun i => c.preimages[i]) 2, preVar s (fun i => c.preimages[i]) 3, preVar s (fun i => c.preimages[i]) 4,
        preVar s (fun i => c.preimages[i]) 5, preVar s (fun i => c.preimages[i]) 6, .constant testDomainSep,
        outVar s (fun i => c.hashOutputs[i]) 0, outVar s (fun i => c.hashOutputs[i]) 1, outVar s (fun i => c.hashOutputs[i]) 2,
        outVar s (fun i => c.hashOutputs[i]) 3, outVar s (fun i => c.hashOutputs[i]) 4, outVar s (fun i => c.hashOutputs[i]) 5,
        outVar s (fun i => c.hashOutputs[i]) 6] (startCS s (fun i => c.preimages[i]) fun i => c.hashOutputs[i]) := by
    intro next
    cases s <;> rfl
  rw [generateConstraints_eq, preimageUser, start, theBlocks]
  refine generate_block 0 _ 8 15 rfl _ _ _ _ _ (ext2 fun j => by fin_cases j <;> rfl) (fun d => rfl) _ fun d1 cs => ?_
  refine generate_block 1 _ 9 16 rfl _ _ _ _ _ (ext2 fun j => by fin_cases j <;> rfl) (fun d => rfl) _ fun d2 cs => ?_
  refine generate_block 2 _ 10 17 rfl _ _ _ _ _ (ext2 fun j => by fin_cases j <;> rfl) (fun d => rfl) _ fun d3 cs => ?_
  refine generate_block 3 _ 11 18 rfl _ _ _ _ _ (ext2 fun j => by fin_cases j <;> rfl) (fun d => rfl) _ fun d4 cs => ?_
  refine generate_block 4 _ 12 19 rfl _ _ _ _ _ (ext2 fun j => by fin_cases j <;> rfl) (fun d => rfl) _ fun d5 cs => ?_
  refine generate_block 5 _ 13 20 rfl _ _ _ _ _ (ext2 fun j => by fin_cases j <;> rfl) (fun d => rfl) _ fun d6 cs => ?_
  refine generate_block 6 _ 14 21 rfl _ _ _ _ _ (ext2 fun j => by fin_cases j <;> rfl) (fun d => rfl) _ fun d7 cs => ?_
  rfl

/-! ### Two examples: chains of hashes and paths in a tree -/

/-- `k` hashes, each of the result of the one before, and the claim that the last is `y`. -/
def chainFrom (y : Fq) : Nat → {n : Nat} → (ds last : Fin n) → UserCircuit n
  | 0, n, _, last => .input y (.equal (Fin.last n) last.castSucc .done)
  | k + 1, n, ds, last => .hash 0 #v[ds, last] (chainFrom y k ds.castSucc (Fin.last n))

/-- Someone knows `x` whose `k`-fold hash is `y`. -/
def chain (k : Nat) (ds x y : Fq) : UserCircuit 0 := .constant ds (.witness x (chainFrom y k 0 1))

/-- The native `k`-fold hash. -/
def hashTimes (ds : Fq) : Nat → Fq → R Fq
  | 0, x => .ok x
  | k + 1, x => do hashTimes ds k (← hash1 ds x)

theorem nativeHash_0 (w : Vector Fq 2) : nativeHash 0 w = hash1 w[0] w[1] := rfl
theorem nativeHash_3 (w : Vector Fq 5) : nativeHash 3 w = hash4 w[0] (w[1], w[2], w[3], w[4]) := rfl

theorem chainFrom_accepts (y₀ ds : Fq) (k : Nat) : ∀ {n : Nat} (d last : Fin n) (r : Vector Fq n) (w y : List Fq), r[d] = ds →
    ((chainFrom y₀ k d last).Accepts r w y ↔ ∃ z, w = [] ∧ y = [z] ∧ hashTimes ds k r[last] = .ok z) := by
  induction k with
  | zero =>
    intro n d last r w y hd
    simp only [chainFrom, UserCircuit.Accepts, hashTimes]
    constructor
    · rintro ⟨x, y', rfl, h1, rfl, rfl⟩
      refine ⟨x, rfl, rfl, ?_⟩
      have h1 : (r.push x)[n] = (r.push x)[last.val] := h1
      rw [Vector.getElem_push_eq, Vector.getElem_push_lt last.isLt] at h1
      rw [h1]; rfl
    · rintro ⟨z, rfl, rfl, h⟩
      refine ⟨z, [], rfl, ?_, rfl, rfl⟩
      show (r.push z)[n] = (r.push z)[last.val]
      rw [Vector.getElem_push_eq, Vector.getElem_push_lt last.isLt]
      exact (Except.ok.inj h).symm
  | succ k ih =>
    intro n d last r w y hd
    simp only [chainFrom, UserCircuit.Accepts, hashTimes]
    have hn : nativeHash 0 ((#v[d, last] : Vector (Fin n) 2).map fun k => r[k]) = hash1 ds r[last] := by
      rw [nativeHash_0, Vector.getElem_map, Vector.getElem_map, ← hd]
      rfl
    have hstep : ∀ x : Fq, (chainFrom y₀ k d.castSucc (Fin.last n)).Accepts (r.push x) w y ↔
        ∃ z, w = [] ∧ y = [z] ∧ hashTimes ds k x = .ok z := by
      intro x
      have e : (r.push x)[Fin.last n] = x := Vector.getElem_push_eq
      have := ih d.castSucc (Fin.last n) (r.push x) w y (by
        show (r.push x)[d.val] = ds
        rw [Vector.getElem_push_lt d.isLt]; exact hd)
      rw [e] at this
      exact this
    constructor
    · rintro ⟨x, h1, h2⟩
      obtain ⟨z, e1, e2, e3⟩ := (hstep x).1 h2
      have h1 : hash1 ds r[last] = .ok x := hn ▸ h1
      exact ⟨z, e1, e2, by rw [h1]; exact e3⟩
    · rintro ⟨z, e1, e2, e3⟩
      cases hh : hash1 ds r[last] with
      | error e => rw [hh] at e3; cases e3
      | ok x =>
        rw [hh] at e3
        exact ⟨x, hn.trans hh, (hstep x).2 ⟨z, e1, e2, e3⟩⟩

theorem chainFrom_noEqual (y : Fq) (k : Nat) : ∀ {n : Nat} (d last : Fin n) (b : Vector Bool n),
    (chainFrom y k d last).NoConstantEqual b := by
  induction k with
  | zero => intro n d last b; exact ⟨Or.inl Vector.getElem_push_eq, trivial⟩
  | succ k ih => intro n d last b; exact ih _ _ _

theorem chainFrom_noHash (y : Fq) (k : Nat) : ∀ {n : Nat} (d last : Fin n) (b : Vector Bool n), b[last] = true →
    (chainFrom y k d last).NoConstantHash b := by
  induction k with
  | zero => intro n d last b _; trivial
  | succ k ih => intro n d last b h; exact ⟨⟨last, by simp, h⟩, ih _ _ _ Vector.getElem_push_eq⟩

theorem chainFrom_publics (y : Fq) (k : Nat) : ∀ {n : Nat} (d last : Fin n), (chainFrom y k d last).publicValues = [y] := by
  induction k with
  | zero => intro n d last; rfl
  | succ k ih => intro n d last; exact ih _ _

/-- **C95, chains.** For every length `k` the circuit is synthesized, and the public value `y` can be completed to a
satisfying assignment exactly when it is a `k`-fold hash. -/
theorem C95_chain (k : Nat) (ds x y₀ : Fq) (setup : Bool) :
    ∃ cs, (chain k ds x y₀).generate #v[] (CS.new Fq setup) = .ok cs ∧
      ∀ y : Fq, (∃ σ, Satisfies σ cs ∧ σ (.input 1) = y) ↔ ∃ x, hashTimes ds k x = .ok y := by
  obtain ⟨cs, h⟩ := (C95_runs (chain k ds x y₀) setup).2 (chainFrom_noHash y₀ k _ _ _ rfl)
  refine ⟨cs, h, fun y => ?_⟩
  have hl := C95_language _ setup cs h (chainFrom_noEqual y₀ k _ _ _)
  have hpub : ∀ σ, (chain k ds x y₀).publicOf σ = [σ (.input 1)] := by
    intro σ
    have e : (chain k ds x y₀).publicValues = [y₀] := chainFrom_publics y₀ k _ _
    rw [UserCircuit.publicOf, e]
    rfl
  have hacc : ∀ w z, (chain k ds x y₀).Accepts #v[] w [z] ↔ ∃ x, w = [x] ∧ hashTimes ds k x = .ok z := by
    intro w z
    show (∃ x w', w = x :: w' ∧ (chainFrom y₀ k 0 1).Accepts (((#v[] : Vector Fq 0).push ds).push x) w' [z]) ↔ _
    constructor
    · rintro ⟨a, w', rfl, ha⟩
      obtain ⟨z', rfl, e, h⟩ := (chainFrom_accepts y₀ ds k _ _ _ _ _ rfl).1 ha
      cases e
      exact ⟨a, rfl, h⟩
    · rintro ⟨a, rfl, h⟩
      exact ⟨a, [], rfl, (chainFrom_accepts y₀ ds k _ _ _ _ _ rfl).2 ⟨z, rfl, rfl, h⟩⟩
  constructor
  · rintro ⟨σ, hσ, rfl⟩
    obtain ⟨a, -, ha⟩ := (hacc _ _).1 ((hl _ _).1 ⟨σ, hσ, rfl, hpub σ⟩)
    exact ⟨a, ha⟩
  · rintro ⟨a, ha⟩
    obtain ⟨σ, h1, -, h2⟩ := (hl _ _).2 ((hacc [a] y).2 ⟨a, rfl, ha⟩)
    rw [hpub] at h2
    cases h2
    exact ⟨σ, h1, rfl⟩

/-- The five words of `hash_4` for a node with its three siblings. -/
def place {α : Type} (p : Fin 4) (d x a b c : α) : Vector α 5 :=
  match p with
  | 0 => #v[d, x, a, b, c]
  | 1 => #v[d, a, x, b, c]
  | 2 => #v[d, a, b, x, c]
  | 3 => #v[d, a, b, c, x]

theorem place_map {α β : Type} (f : α → β) (p : Fin 4) (d x a b c : α) :
    (place p d x a b c).map f = place p (f d) (f x) (f a) (f b) (f c) := by
  unfold place
  split <;> simp

theorem place_mem {α : Type} (p : Fin 4) (d x a b c : α) : a ∈ place p d x a b c := by
  unfold place
  split <;> simp

/-- A path in a tree in which every node is the `hash_4` of its four children: at each level the position of the node among
its siblings, and the siblings. -/
abbrev TreePath := List (Fin 4 × Fq × Fq × Fq)

/-- The parent of the node `x` at position `p`. -/
def parent (ds : Fq) (p : Fin 4) (x a b c : Fq) : R Fq :=
  match p with
  | 0 => hash4 ds (x, a, b, c)
  | 1 => hash4 ds (a, x, b, c)
  | 2 => hash4 ds (a, b, x, c)
  | 3 => hash4 ds (a, b, c, x)

/-- The root above a node. -/
def rootAbove (ds : Fq) : TreePath → Fq → R Fq
  | [], x => .ok x
  | (p, a, b, c) :: l, x => do rootAbove ds l (← parent ds p x a b c)

/-- The circuit for a path: siblings are witnesses, the positions are part of the circuit. -/
def pathFrom (y : Fq) : TreePath → {n : Nat} → (ds node : Fin n) → UserCircuit n
  | [], n, _, node => .input y (.equal (Fin.last n) node.castSucc .done)
  | (p, a, b, c) :: l, n, ds, node => .witness a <| .witness b <| .witness c <|
    .hash 3 (place p (ds.castAdd 3) (node.castAdd 3) ⟨n, by omega⟩ ⟨n + 1, by omega⟩ ⟨n + 2, by omega⟩)
      (pathFrom y l (ds.castAdd 4) (Fin.last (n + 3)))

/-- Someone knows a leaf and siblings for the root `y`. -/
def path (l : TreePath) (ds leaf y : Fq) : UserCircuit 0 := .constant ds (.witness leaf (pathFrom y l 0 1))

theorem nativeHash_place (p : Fin 4) (ds x a b c : Fq) : nativeHash 3 (place p ds x a b c) =
    parent ds p x a b c := by
  unfold place parent
  split <;> rw [nativeHash_3] <;> rfl

theorem push3 {n : Nat} (r : Vector Fq n) (a b c : Fq) :
    (∀ j : Fin n, (((r.push a).push b).push c)[j.castAdd 3] = r[j]) ∧
    (((r.push a).push b).push c)[n] = a ∧ (((r.push a).push b).push c)[n + 1] = b ∧ (((r.push a).push b).push c)[n + 2] = c := by
  refine ⟨fun j => ?_, ?_, ?_, ?_⟩
  · show (((r.push a).push b).push c)[j.val] = r[j.val]
    rw [Vector.getElem_push_lt (by omega), Vector.getElem_push_lt (by omega), Vector.getElem_push_lt (by omega)]
  · rw [Vector.getElem_push_lt (by omega), Vector.getElem_push_lt (by omega), Vector.getElem_push_eq]
  · rw [Vector.getElem_push_lt (by omega), Vector.getElem_push_eq]
  · rw [Vector.getElem_push_eq]

theorem pathFrom_accepts (y₀ ds : Fq) (l : TreePath) : ∀ {n : Nat} (d node : Fin n) (r : Vector Fq n) (w y : List Fq), r[d] = ds →
    ((pathFrom y₀ l d node).Accepts r w y ↔ ∃ (l' : TreePath) (z : Fq), l'.map Prod.fst = l.map Prod.fst ∧
      w = l'.flatMap (fun s => [s.2.1, s.2.2.1, s.2.2.2]) ∧ y = [z] ∧ rootAbove ds l' r[node] = .ok z) := by
  induction l with
  | nil =>
    intro n d node r w y hd
    simp only [pathFrom, UserCircuit.Accepts, List.map_nil, List.map_eq_nil_iff]
    constructor
    · rintro ⟨x, y', rfl, h1, rfl, rfl⟩
      refine ⟨[], x, rfl, rfl, rfl, ?_⟩
      have h1 : (r.push x)[n] = (r.push x)[node.val] := h1
      rw [Vector.getElem_push_eq, Vector.getElem_push_lt node.isLt] at h1
      rw [h1]; rfl
    · rintro ⟨_, z, rfl, rfl, rfl, h⟩
      refine ⟨z, [], rfl, ?_, rfl, rfl⟩
      show (r.push z)[n] = (r.push z)[node.val]
      rw [Vector.getElem_push_eq, Vector.getElem_push_lt node.isLt]
      exact (Except.ok.inj h).symm
  | cons s l ih =>
    intro n d node r w y hd
    obtain ⟨p, a₀, b₀, c₀⟩ := s
    have hn : ∀ a b c : Fq, nativeHash 3 ((place p (d.castAdd 3) (node.castAdd 3) (⟨n, by omega⟩ : Fin (n + 3)) ⟨n + 1, by omega⟩
        ⟨n + 2, by omega⟩).map fun k => (((r.push a).push b).push c)[k]) = nativeHash 3 (place p ds r[node] a b c) := by
      intro a b c
      obtain ⟨h1, h2, h3, h4⟩ := push3 r a b c
      rw [place_map, h1, h1, hd]
      simp only [Fin.getElem_fin, h2, h3, h4]
    have hstep : ∀ a b c x : Fq, ∀ w, (pathFrom y₀ l (d.castAdd 4) (Fin.last (n + 3))).Accepts
        ((((r.push a).push b).push c).push x) w y ↔ ∃ (l' : TreePath) (z : Fq), l'.map Prod.fst = l.map Prod.fst ∧
      w = l'.flatMap (fun s => [s.2.1, s.2.2.1, s.2.2.2]) ∧ y = [z] ∧ rootAbove ds l' x = .ok z := by
      intro a b c x w
      have e : ((((r.push a).push b).push c).push x)[Fin.last (n + 3)] = x := Vector.getElem_push_eq
      have := ih (d.castAdd 4) (Fin.last (n + 3)) ((((r.push a).push b).push c).push x) w y (by
        show ((((r.push a).push b).push c).push x)[d.val] = ds
        rw [Vector.getElem_push_lt (by omega)]
        exact ((push3 r a b c).1 d).trans hd)
      rw [e] at this
      exact this
    simp only [pathFrom, UserCircuit.Accepts]
    constructor
    · rintro ⟨a, _, rfl, b, _, rfl, c, w, rfl, x, h1, h2⟩
      obtain ⟨l', z, e1, e2, e3, e4⟩ := (hstep a b c x w).1 h2
      have h1 := (hn a b c).symm.trans h1
      rw [nativeHash_place] at h1
      refine ⟨(p, a, b, c) :: l', z, by simp [e1], by simp [e2], e3, ?_⟩
      rw [rootAbove, h1]
      exact e4
    · rintro ⟨l'', z, e1, e2, e3, e4⟩
      match l'', e1 with
      | (p', a, b, c) :: l', e1 =>
        rw [List.map_cons, List.map_cons, List.cons.injEq] at e1
        obtain ⟨rfl, e0⟩ := e1
        rw [rootAbove, ← nativeHash_place] at e4
        cases hx : nativeHash 3 (place p' ds r[node] a b c) with
        | error e => rw [hx] at e4; cases e4
        | ok x =>
          rw [hx] at e4
          exact ⟨a, _, e2, b, _, rfl, c, _, rfl, x, (hn a b c).trans hx, (hstep a b c x _).2 ⟨l', z, e0, rfl, e3, e4⟩⟩

theorem pathFrom_noEqual (y : Fq) (l : TreePath) : ∀ {n : Nat} (d node : Fin n) (b : Vector Bool n),
    (pathFrom y l d node).NoConstantEqual b := by
  induction l with
  | nil => intro n d node b; exact ⟨Or.inl Vector.getElem_push_eq, trivial⟩
  | cons s l ih => intro n d node b; exact ih _ _ _

theorem pathFrom_noHash (y : Fq) (l : TreePath) : ∀ {n : Nat} (d node : Fin n) (b : Vector Bool n),
    (pathFrom y l d node).NoConstantHash b := by
  induction l with
  | nil => intro n d node b; trivial
  | cons s l ih =>
    intro n d node b
    refine ⟨⟨⟨n, by omega⟩, place_mem .., ?_⟩, ih _ _ _⟩
    show (((b.push true).push true).push true)[n] = true
    rw [Vector.getElem_push_lt (by omega), Vector.getElem_push_lt (by omega), Vector.getElem_push_eq]

theorem pathFrom_publics (y : Fq) (l : TreePath) : ∀ {n : Nat} (d node : Fin n), (pathFrom y l d node).publicValues = [y] := by
  induction l with
  | nil => intro n d node; rfl
  | cons s l ih => intro n d node; exact ih _ _

/-- **C95, paths.** For every depth and all positions: the public root `y` can be completed to a satisfying assignment exactly
when some leaf and siblings at these positions give this root. -/
theorem C95_path (l : TreePath) (ds leaf y₀ : Fq) (setup : Bool) :
    ∃ cs, (path l ds leaf y₀).generate #v[] (CS.new Fq setup) = .ok cs ∧
      ∀ y : Fq, (∃ σ, Satisfies σ cs ∧ σ (.input 1) = y) ↔
        ∃ (l' : TreePath) (leaf' : Fq), l'.map Prod.fst = l.map Prod.fst ∧ rootAbove ds l' leaf' = .ok y := by
  obtain ⟨cs, h⟩ := (C95_runs (path l ds leaf y₀) setup).2 (pathFrom_noHash y₀ l _ _ _)
  refine ⟨cs, h, fun y => ?_⟩
  have hl := C95_language _ setup cs h (pathFrom_noEqual y₀ l _ _ _)
  have hpub : ∀ σ, (path l ds leaf y₀).publicOf σ = [σ (.input 1)] := by
    intro σ
    have e : (path l ds leaf y₀).publicValues = [y₀] := pathFrom_publics y₀ l _ _
    rw [UserCircuit.publicOf, e]
    rfl
  have hacc : ∀ w z, (path l ds leaf y₀).Accepts #v[] w [z] ↔ ∃ (l' : TreePath) (x : Fq), l'.map Prod.fst = l.map Prod.fst ∧
      w = x :: l'.flatMap (fun s => [s.2.1, s.2.2.1, s.2.2.2]) ∧ rootAbove ds l' x = .ok z := by
    intro w z
    show (∃ x w', w = x :: w' ∧ (pathFrom y₀ l 0 1).Accepts (((#v[] : Vector Fq 0).push ds).push x) w' [z]) ↔ _
    constructor
    · rintro ⟨a, w', rfl, ha⟩
      obtain ⟨l', z', e1, rfl, e, h⟩ := (pathFrom_accepts y₀ ds l _ _ _ _ _ rfl).1 ha
      cases e
      exact ⟨l', a, e1, rfl, h⟩
    · rintro ⟨l', a, e1, rfl, h⟩
      exact ⟨a, _, rfl, (pathFrom_accepts y₀ ds l _ _ _ _ _ rfl).2 ⟨l', z, e1, rfl, rfl, h⟩⟩
  constructor
  · rintro ⟨σ, hσ, rfl⟩
    obtain ⟨l', a, e1, -, ha⟩ := (hacc _ _).1 ((hl _ _).1 ⟨σ, hσ, rfl, hpub σ⟩)
    exact ⟨l', a, e1, ha⟩
  · rintro ⟨l', a, e1, ha⟩
    obtain ⟨σ, h1, -, h2⟩ := (hl _ _).2 ((hacc _ y).2 ⟨l', a, e1, rfl, ha⟩)
    rw [hpub] at h2
    cases h2
    exact ⟨σ, h1, rfl⟩

/-- The hypotheses are met: a chain of three hashes, with a value that satisfies it. -/
example : ∃ cs, (chain 3 5 1 2).generate #v[] (CS.new Fq true) = .ok cs ∧ (chain 3 5 1 2).NoConstantEqual #v[] ∧
    ∃ y σ, Satisfies σ cs ∧ σ (.input 1) = y := by
  obtain ⟨cs, h1, h2⟩ := C95_chain 3 5 1 2 true
  obtain ⟨y1, -, e1⟩ := C02_hash_1 5 1
  obtain ⟨y2, -, e2⟩ := C02_hash_1 5 (y1 1)
  obtain ⟨y3, -, e3⟩ := C02_hash_1 5 (y2 1)
  refine ⟨cs, h1, chainFrom_noEqual 2 3 _ _ _, y3 1, (h2 _).2 ⟨1, ?_⟩⟩
  rw [hashTimes, e1, ok_bind, hashTimes, e2, ok_bind, hashTimes, e3, ok_bind, hashTimes]

/-- The circuit of the test-suite meets them too. -/
example (c : PreimageCircuit) : (preimageUser c).NoConstantEqual #v[] ∧ (preimageUser c).NoConstantHash #v[] := by
  obtain ⟨cs, h⟩ := C62_setup c
  rw [← C95_preimage] at h
  refine ⟨?_, (C95_runs _ true).1 ⟨cs, h⟩⟩
  unfold preimageUser
  simp only [UserCircuit.NoConstantEqual]
  refine ⟨Or.inl ?_, Or.inl ?_, Or.inl ?_, Or.inl ?_, Or.inl ?_, Or.inl ?_, Or.inl ?_, trivial⟩ <;> rfl

end Poseidon
