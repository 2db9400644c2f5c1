import Verif.Model.GenBuild
import Verif.Spec.RustText
import Verif.Proofs.Loops
import Verif.Proofs.Matrix
import Mathlib.Tactic.IntervalCases

/-! # Reading back the generated text -/

namespace Poseidon

open Spec

set_option linter.unusedSectionVars false

/-- `r` reads `s` as `x`, whatever follows. -/
def Reads {α : Type} (r : Reader α) (s : List Char) (x : α) : Prop := ∀ rest, r (s ++ rest) = some (x, rest)

/-- `r` reads `s` as `x` if what follows does not begin with a digit. -/
def ReadsNum {α : Type} (r : Reader α) (s : List Char) (x : α) : Prop :=
  ∀ rest, (∀ c ∈ rest.head?, c.isDigit = false) → r (s ++ rest) = some (x, rest)

theorem bind_apply {α β : Type} (r : Reader α) (k : α → Reader β) (cs : List Char) :
    (r >>= k) cs = (r cs).bind fun x => k x.1 x.2 := rfl

theorem Reads.bind {α β : Type} {r : Reader α} {k : α → Reader β} {s s' : List Char} {x : α} {y : β}
    (h : Reads r s x) (h' : Reads (k x) s' y) : Reads (r >>= k) (s ++ s') y := by
  intro rest
  rw [List.append_assoc, bind_apply, h]
  exact h' rest

theorem Reads.pure {α : Type} (x : α) : Reads (pure x : Reader α) [] x := fun _ => rfl

theorem Reads.bind_last {α β : Type} {r : Reader α} {k : α → Reader β} {s : List Char} {x : α} {y : β}
    (h : Reads r s x) (h' : Reads (k x) [] y) : Reads (r >>= k) s y := by
  have := h.bind h'
  rwa [List.append_nil] at this

theorem ReadsNum.bind {α β : Type} {r : Reader α} {k : α → Reader β} {s s' : List Char} {x : α} {y : β}
    (h : ReadsNum r s x) (h' : Reads (k x) s' y) (hd : (s'.head?.map Char.isDigit) = some false) :
    Reads (r >>= k) (s ++ s') y := by
  intro rest
  obtain ⟨c, t, rfl, hc⟩ : ∃ c t, s' = c :: t ∧ c.isDigit = false := by
    cases s' with
    | nil => simp at hd
    | cons c t => exact ⟨c, t, rfl, by simpa using hd⟩
  rw [List.append_assoc, bind_apply, h _ (by simp [hc])]
  exact h' rest

theorem expectL_append (s rest : List Char) : expectL s (s ++ rest) = some ((), rest) := by
  induction s with
  | nil => rfl
  | cons c s ih => rw [List.cons_append, expectL, if_pos rfl, ih]

theorem reads_expect (s : String) : Reads (expect s) s.toList () := fun rest => expectL_append _ rest

/-! ## Decimal literals -/

theorem digitChar_toNat {d : Nat} (h : d < 10) : (digitChar d).toNat = '0'.toNat + d := by
  interval_cases d <;> rfl

theorem digitChar_isDigit {d : Nat} (h : d < 10) : (digitChar d).isDigit = true := by
  interval_cases d <;> rfl

theorem digitChar_ne_zero {d : Nat} (h : d < 10) (h0 : 0 < d) : digitChar d ≠ '0' := by
  interval_cases d <;> decide

theorem decimal_lt {n : Nat} (h : n < 10) : decimal n = [digitChar n] := by rw [decimal, if_pos h]
theorem decimal_ge {n : Nat} (h : 10 ≤ n) : decimal n = decimal (n / 10) ++ [digitChar (n % 10)] := by
  rw [decimal, if_neg (by omega)]

/-- A positive number starts with a digit other than 0, and the remaining digits continue its value. -/
theorem decimal_pos (n : Nat) (hn : 0 < n) : ∃ d l, 0 < d ∧ d < 10 ∧ decimal n = digitChar d :: l ∧
    ∀ rest, (∀ c ∈ rest.head?, c.isDigit = false) → readDigits d (l ++ rest) = (n, rest) := by
  have stop : ∀ (v : Nat) (rest : List Char), (∀ c ∈ rest.head?, c.isDigit = false) → readDigits v rest = (v, rest) := by
    intro v rest h
    cases rest with
    | nil => rfl
    | cons c t => rw [readDigits, if_neg (by simp [h c rfl])]
  -- the digits read so far, followed by anything
  have key : ∀ n : Nat, 0 < n → ∃ d l, 0 < d ∧ d < 10 ∧ decimal n = digitChar d :: l ∧
      ∀ rest, readDigits d (l ++ rest) = readDigits n rest := by
    intro n
    induction n using Nat.strong_induction_on with
    | _ n ih =>
      intro hn
      by_cases h : n < 10
      · exact ⟨n, [], hn, h, decimal_lt h, fun _ => rfl⟩
      · obtain ⟨d, l, h1, h2, h3, h4⟩ := ih (n / 10) (by omega) (by omega)
        refine ⟨d, l ++ [digitChar (n % 10)], h1, h2, ?_, fun rest => ?_⟩
        · rw [decimal_ge (by omega), h3]; rfl
        · have h10 : n % 10 < 10 := Nat.mod_lt _ (by norm_num)
          rw [List.append_assoc, h4, List.singleton_append, readDigits, if_pos (digitChar_isDigit h10),
            digitChar_toNat h10, Nat.add_sub_cancel_left]
          congr 1
          omega
  obtain ⟨d, l, h1, h2, h3, h4⟩ := key n hn
  exact ⟨d, l, h1, h2, h3, fun rest hr => by rw [h4, stop n rest hr]⟩

theorem readsNum_decimal (n : Nat) : ReadsNum readNat (decimal n) n := by
  intro rest hr
  rcases Nat.eq_zero_or_pos n with rfl | hn
  · rw [decimal_lt (by norm_num)]
    show readNat ('0' :: rest) = _
    cases rest with
    | nil => rfl
    | cons c t => simp [readNat, hr c rfl]
  · obtain ⟨d, l, h1, h2, h3, h4⟩ := decimal_pos n hn
    rw [h3, List.cons_append]
    simp only [readNat]
    rw [if_neg (digitChar_ne_zero h2 h1), if_pos (digitChar_isDigit h2), digitChar_toNat h2, Nat.add_sub_cancel_left,
      h4 rest hr]

/-! ## Field elements and lists -/

variable {p : Nat} [NeZero p]

theorem reads_field (x : ZMod p) : Reads (readField p) (serializeF x) x := by
  unfold readField serializeF
  simp only [List.append_assoc]
  refine (reads_expect _).bind ?_
  refine (readsNum_decimal _).bind ?_ (by simp)
  rw [if_neg (by have := x.val_lt; omega)]
  refine (Reads.bind_last (reads_expect _) ?_)
  rw [ZMod.natCast_zmod_val]
  exact Reads.pure x

/-- The text of the items after `vec![`. -/
def items {α : Type} (f : α → List Char) : List α → List Char
  | [] => []
  | [x] => f x
  | x :: y :: l => f x ++ ", ".toList ++ items f (y :: l)

theorem foldl_items {α : Type} (f : α → List Char) (l : List α) (s : List Char) (hl : l ≠ []) :
    l.foldl (fun s x => s ++ f x ++ ", ".toList) s = s ++ items f l ++ ", ".toList := by
  induction l generalizing s with
  | nil => exact absurd rfl hl
  | cons x l ih =>
    cases l with
    | nil => rfl
    | cons y l =>
      rw [List.foldl_cons, ih _ (by simp)]
      simp only [items, List.append_assoc]

theorem dropLast_two (s : List Char) (a b : Char) : (s ++ [a, b]).dropLast.dropLast = s := by
  rw [show s ++ [a, b] = (s ++ [a]) ++ [b] by simp, List.dropLast_concat, List.dropLast_concat]

theorem orElse_apply {α : Type} (a b : Reader α) (cs : List Char) : (a <|> b) cs = (a cs <|> b cs) := rfl

theorem Reads.orLeft {α : Type} {a : Reader α} (b : Reader α) {s : List Char} {x : α} (h : Reads a s x) :
    Reads (a <|> b) s x := by
  intro rest
  rw [orElse_apply, h]
  rfl

theorem Reads.orRight {α : Type} {a b : Reader α} {s : List Char} {x : α} (ha : ∀ rest, a (s ++ rest) = none)
    (h : Reads b s x) : Reads (a <|> b) s x := by
  intro rest
  rw [orElse_apply, ha, h]
  rfl

theorem reads_items {α : Type} {r : Reader α} {f : α → List Char} (l : List α) (hl : l ≠ [])
    (hr : ∀ x ∈ l, Reads r (f x) x) : ∀ n, l.length ≤ n → Reads (readItems r n) (items f l ++ [']']) l := by
  induction l with
  | nil => exact absurd rfl hl
  | cons x l ih =>
    intro n hn
    obtain ⟨n, rfl⟩ : ∃ m, n = m + 1 := ⟨n - 1, by rw [List.length_cons] at hn; omega⟩
    rw [readItems]
    cases l with
    | nil =>
      exact (hr x (by simp)).bind (Reads.orLeft _ (Reads.bind_last (reads_expect "]") (Reads.pure _)))
    | cons y l =>
      rw [items, List.append_assoc, List.append_assoc]
      refine (hr x (by simp)).bind (Reads.orRight (fun _ => rfl) ?_)
      refine (reads_expect ", ").bind (Reads.bind_last (ih (by simp) (fun z hz => hr z (by simp [hz])) n ?_) (Reads.pure _))
      simpa using hn

theorem items_length {α : Type} {f : α → List Char} (l : List α) (hf : ∀ x ∈ l, f x ≠ []) :
    l.length ≤ (items f l).length := by
  induction l with
  | nil => simp [items]
  | cons x l ih =>
    have hx : 1 ≤ (f x).length := List.length_pos_iff.2 (hf x (by simp))
    cases l with
    | nil => simpa [items] using hx
    | cons y l =>
      have := ih (fun z hz => hf z (by simp [hz]))
      simp only [items, List.length_append, List.length_cons] at this ⊢
      omega

/-- Lists of at least one item. -/
theorem reads_vec {α : Type} {r : Reader α} {f : α → List Char} (l : List α) (hl : l ≠ [])
    (hr : ∀ x ∈ l, Reads r (f x) x) (hf : ∀ x ∈ l, ∃ c t, f x = c :: t ∧ c ≠ ']') :
    Reads (readVec r) ((l.foldl (fun s x => s ++ f x ++ ", ".toList) "vec![".toList).dropLast.dropLast ++ [']']) l := by
  rw [foldl_items f l _ hl]
  have e : (", ".toList : List Char) = [',', ' '] := by simp
  rw [e, dropLast_two, List.append_assoc]
  unfold readVec
  refine (reads_expect _).bind ?_
  have hne : ∃ c t, items f l = c :: t ∧ c ≠ ']' := by
    cases l with
    | nil => exact absurd rfl hl
    | cons x l =>
      obtain ⟨c, t, h1, h2⟩ := hf x (by simp)
      cases l with
      | nil => exact ⟨c, t, h1, h2⟩
      | cons y l => exact ⟨c, t ++ ", ".toList ++ items f (y :: l), by simp [items, h1], h2⟩
  obtain ⟨c, t, h1, h2⟩ := hne
  refine Reads.orRight (fun rest => ?_) (fun rest => ?_)
  · rw [h1, bind_apply]
    have : expect "]" (c :: t ++ [']'] ++ rest) = none := by
      show expectL [']'] (c :: (t ++ [']'] ++ rest)) = none
      rw [expectL, if_neg (Ne.symm h2)]
    rw [this]; rfl
  · refine reads_items l hl hr _ ?_ rest
    have := items_length l (f := f) (fun x hx => by obtain ⟨c, t, h, -⟩ := hf x hx; simp [h])
    simp only [List.length_append]
    omega

theorem pushElement_eq (s : List Char) (x : ZMod p) : pushElement s x = s ++ serializeF x ++ ", ".toList := by
  unfold pushElement serializeF
  simp

theorem serializeF_head (x : ZMod p) : ∃ c t, serializeF x = c :: t ∧ c ≠ ']' := by
  unfold serializeF
  exact ⟨'F', _, by simp; rfl, by decide⟩

theorem reads_slice (l : List (ZMod p)) (hl : l ≠ []) : Reads (readVec (readField p)) (serializeSliceF l) l := by
  rw [serializeSliceF, show (pushElement : List Char → ZMod p → List Char) = fun s x => s ++ serializeF x ++ ", ".toList from
    funext fun s => funext fun x => pushElement_eq s x]
  exact reads_vec l hl (fun x _ => reads_field x) (fun x _ => serializeF_head x)

theorem serializeSliceOfVecsF_eq (l : List (List (ZMod p))) : serializeSliceOfVecsF l = serializeSliceF l.flatten := by
  unfold serializeSliceOfVecsF serializeSliceF
  congr 2
  congr 1
  generalize "vec![".toList = s
  induction l generalizing s with
  | nil => rfl
  | cons r l ih => rw [List.foldl_cons, ih, List.flatten_cons, List.foldl_append]

/-! ## Matrices -/

theorem reads_matrix_core (name : String) (r c : Nat) (l : List (ZMod p)) (hl : l ≠ []) :
    Reads (readMatrix p name) (name.toList ++ ("::new(".toList ++ (decimal r ++ (", ".toList ++ (decimal c ++ (", ".toList ++
      (serializeSliceF l ++ ")".toList))))))) ⟨r, c, l⟩ := by
  unfold readMatrix
  refine (reads_expect _).bind ((reads_expect _).bind ?_)
  refine (readsNum_decimal r).bind ?_ (by simp)
  refine (reads_expect _).bind ?_
  refine (readsNum_decimal c).bind ?_ (by simp)
  exact (reads_expect _).bind ((reads_slice l hl).bind (Reads.bind_last (reads_expect _) (Reads.pure _)))

theorem toList_ne {α : Type} {n : Nat} (v : Vector α n) (h : 0 < n) : v.toList ≠ [] := by
  intro e
  have := v.length_toList
  rw [e] at this
  simp at this
  omega

theorem reads_matrix {r c n : Nat} (m : Mat (ZMod p) r c n) (hn : 0 < n) :
    Reads (readMatrix p "Matrix") (displayMatrix m) (matData m) := by
  unfold displayMatrix
  have := reads_matrix_core "Matrix" r c m.elements.toList (toList_ne _ hn)
  have e : "Matrix::new(".toList = "Matrix".toList ++ "::new(".toList := by simp
  rw [e]
  simpa only [List.append_assoc, matData] using this

theorem reads_square {k n : Nat} (m : Mat (ZMod p) k k n) (hn : 0 < n) :
    Reads (readMatrix p "SquareMatrix") (displaySquareMatrix m) (matData m) := by
  unfold displaySquareMatrix
  have := reads_matrix_core "SquareMatrix" k k m.elements.toList (toList_ne _ hn)
  have e : "SquareMatrix::new(".toList = "SquareMatrix".toList ++ "::new(".toList := by simp
  rw [e]
  simpa only [List.append_assoc, matData] using this

theorem reads_mds {r c n : Nat} (m : Mat (ZMod p) r c n) (hn : 0 < n) :
    Reads (readMds p) (displayMds m) m.elements.toList := by
  have e : [')'] = ")".toList := by simp
  unfold displayMds readMds
  rw [List.append_assoc, e]
  exact (reads_expect _).bind ((reads_slice _ (toList_ne _ hn)).bind (Reads.bind_last (reads_expect ")") (Reads.pure _)))

theorem reads_slice_matrix {r c n : Nat} (l : List (Mat (ZMod p) r c n)) (hl : l ≠ []) (hn : 0 < n) :
    Reads (readVec (readMatrix p "Matrix")) (serializeSliceMatrixF l) (l.map matData) := by
  have := reads_vec (r := readMatrix p "Matrix") (f := fun d : MatrixData p => "Matrix::new(".toList ++ decimal d.rows ++ ", ".toList ++
    decimal d.cols ++ ", ".toList ++ serializeSliceF d.elements ++ ")".toList) (l.map matData) (by simpa using hl)
    (by
      intro d hd
      obtain ⟨m, _, rfl⟩ := List.mem_map.1 hd
      exact reads_matrix m hn)
    (by
      intro d _
      exact ⟨'M', _, by simp; rfl, by decide⟩)
  rw [List.foldl_map] at this
  exact this

theorem arcRows_eq {r c n : Nat} (h : n = r * c) (m : Mat (ZMod p) r c n) :
    ∃ l, arcRows m = .ok l ∧ l.flatten = m.elements.toList := by
  subst h
  have row : ∀ i (hi : i < r), ∃ row, (forRange 0 c [] fun j row => do
      let x ← m.get i j
      return row ++ [x]) = Except.ok row ∧ row.length = c ∧
        ∀ j (hj : j < c), row[j]? = some (m.elements[i * c + j]'(flat_lt hi hj)) := by
    intro i hi
    obtain ⟨row, h1, h2, h3⟩ := forRange_spec (lo := 0) (hi := c)
      (fun q (row : List (ZMod p)) => row.length = q ∧
        ∀ j (hj : j < c), j < q → row[j]? = some (m.elements[i * c + j]'(flat_lt hi hj)))
      (body := fun j row => do
        let x ← m.get i j
        return row ++ [x]) (Nat.zero_le _) (s := [])
      ⟨rfl, fun j _ h => absurd h (by omega)⟩ (by
        intro q row _ hq ⟨hl, hrow⟩
        refine ⟨row ++ [m.elements[i * c + q]'(flat_lt hi hq)], ?_, by simp [hl], ?_⟩
        · rw [Mat.get, aget_lt _ (flat_lt hi hq)]; rfl
        · intro j hj hjq
          by_cases h : j < q
          · rw [List.getElem?_append_left (by omega)]
            exact hrow j hj h
          · obtain rfl : j = q := by omega
            rw [List.getElem?_append_right (by omega), hl]
            simp)
    exact ⟨row, h1, h2, fun j hj => h3 j hj hj⟩
  obtain ⟨rows, h1, h2, h3⟩ := forRange_spec (lo := 0) (hi := r)
    (fun q (rows : List (List (ZMod p))) => rows.flatten.length = q * c ∧
      ∀ k (hk : k < r * c), k < q * c → rows.flatten[k]? = some m.elements[k])
    (body := fun i rows => do
      let row ← forRange 0 c [] fun j row => do
        let x ← m.get i j
        return row ++ [x]
      return rows ++ [row]) (Nat.zero_le _) (s := [])
    ⟨by simp, fun k _ h => absurd h (by omega)⟩ (by
      intro q rows _ hq ⟨hl, hrows⟩
      obtain ⟨row, e1, e2, e3⟩ := row q hq
      refine ⟨rows ++ [row], ?_, ?_, ?_⟩
      · rw [e1]; rfl
      · rw [List.flatten_append, List.length_append, hl]
        simp [e2, Nat.add_mul]
      · intro k hk hkq
        rw [List.flatten_append]
        by_cases h : k < q * c
        · rw [List.getElem?_append_left (by omega)]
          exact hrows k hk h
        · rw [List.getElem?_append_right (by omega), hl]
          have hkc : k - q * c < c := by rw [Nat.add_mul] at hkq; omega
          have := e3 (k - q * c) hkc
          simp only [List.flatten_cons, List.flatten_nil, List.append_nil]
          rw [this]
          congr 2
          omega)
  refine ⟨rows, h1, ?_⟩
  apply List.ext_getElem?
  intro k
  by_cases hk : k < r * c
  · rw [h3 k hk hk]
    simp [hk]
  · rw [List.getElem?_eq_none (by omega), List.getElem?_eq_none (by simp; omega)]

theorem reads_alpha (a : Alpha) : Reads readAlpha (displayAlpha a) a := by
  cases a with
  | exponent e =>
    unfold readAlpha displayAlpha
    simp only [List.append_assoc]
    refine Reads.orLeft _ ((reads_expect _).bind ?_)
    exact (readsNum_decimal e).bind (Reads.bind_last (reads_expect _) (Reads.pure _)) (by simp)
  | inverse =>
    unfold readAlpha displayAlpha
    refine Reads.orRight (fun rest => ?_) (Reads.bind_last (reads_expect _) (Reads.pure _))
    rw [bind_apply]
    have : expect "Alpha::Exponent(" ("Alpha::Inverse".toList ++ rest) = none := by
      unfold expect
      simp [expectL]
    rw [this]; rfl

theorem reads_optimized {npart t tm1 nmds nhat : Nat} (o : OptimizedMds (ZMod p) npart t tm1 nmds nhat) (h1 : 0 < npart)
    (h2 : 0 < tm1) (h3 : 0 < nmds) (h4 : 0 < nhat) : Reads (readOptimized p) (displayOptimizedMds o) (optimizedData o) := by
  unfold readOptimized displayOptimizedMds
  simp only [List.append_assoc]
  refine (reads_expect _).bind ((reads_square _ h4).bind ?_)
  refine (reads_expect _).bind ((reads_matrix _ h2).bind ?_)
  refine (reads_expect _).bind ((reads_matrix _ h2).bind ?_)
  refine (reads_expect _).bind ((reads_square _ h3).bind ?_)
  refine (reads_expect _).bind ((reads_square _ h3).bind ?_)
  refine (reads_expect _).bind ((reads_square _ h3).bind ?_)
  refine (reads_expect _).bind ((reads_square _ h4).bind ?_)
  refine (reads_expect _).bind ((reads_field _).bind ?_)
  refine (reads_expect _).bind ((reads_matrix _ h3).bind ?_)
  refine (reads_expect _).bind ((reads_slice_matrix _ (toList_ne _ h1) h2).bind ?_)
  refine (reads_expect _).bind ((reads_slice_matrix _ (toList_ne _ h1) h2).bind ?_)
  exact Reads.bind_last (reads_expect _) (Reads.pure _)

theorem reads_arc_core {r c n : Nat} (name : String) (m : Mat (ZMod p) r c n) (h : n = r * c) (hn : 0 < n) :
    ∃ l, arcRows m = .ok l ∧ Reads (readMatrix p name) (name.toList ++ ("::new(".toList ++ (decimal r ++ (", ".toList ++
      (decimal c ++ (", ".toList ++ (serializeSliceOfVecsF l ++ ")".toList))))))) (matData m) := by
  obtain ⟨l, h1, h2⟩ := arcRows_eq h m
  refine ⟨l, h1, ?_⟩
  rw [serializeSliceOfVecsF_eq, h2]
  exact reads_matrix_core name r c m.elements.toList (toList_ne _ hn)

theorem reads_arc {r c n : Nat} (m : Mat (ZMod p) r c n) (h : n = r * c) (hn : 0 < n) :
    ∃ s, displayArc m = .ok s ∧ Reads (readMatrix p "ArcMatrix") s (matData m) := by
  obtain ⟨l, h1, h2⟩ := reads_arc_core "ArcMatrix" m h hn
  refine ⟨_, by rw [displayArc, h1]; rfl, ?_⟩
  have e : "ArcMatrix::new(".toList = "ArcMatrix".toList ++ "::new(".toList := by simp
  have e' : [')'] = ")".toList := by simp
  rw [e, e']
  simpa only [List.append_assoc] using h2

theorem reads_oarc {r c n : Nat} (m : Mat (ZMod p) r c n) (h : n = r * c) (hn : 0 < n) :
    ∃ s, displayOptimizedArc m = .ok s ∧ Reads (readMatrix p "OptimizedArcMatrix") s (matData m) := by
  obtain ⟨l, h1, h2⟩ := reads_arc_core "OptimizedArcMatrix" m h hn
  refine ⟨_, by rw [displayOptimizedArc, h1]; rfl, ?_⟩
  have e : "OptimizedArcMatrix::new(".toList = "OptimizedArcMatrix".toList ++ "::new(".toList := by simp
  have e' : [')'] = ")".toList := by simp
  rw [e, e']
  simpa only [List.append_assoc] using h2

theorem reads_params {t tm1 nmds nhat rows cols nround npart : Nat}
    (P : Params (ZMod p) t tm1 nmds nhat rows cols nround npart) (h1 : 0 < npart) (h2 : 0 < tm1) (h3 : 0 < nmds) (h4 : 0 < nhat)
    (h5 : nround = rows * cols) (h6 : 0 < nround) (h7 : 1 ≤ t) :
    ∃ s, displayParams P = .ok s ∧ Reads (readParams p) s (paramsData P) := by
  obtain ⟨arc, a1, a2⟩ := reads_arc P.arc h5 h6
  obtain ⟨oarc, o1, o2⟩ := reads_oarc P.optimizedArc h5 h6
  unfold displayParams
  rw [usub, if_pos h7, ok_bind, a1, ok_bind, o1, ok_bind]
  refine ⟨_, rfl, ?_⟩
  unfold readParams
  simp only [List.append_assoc]
  refine (reads_expect _).bind ((readsNum_decimal _).bind ?_ (by simp))
  refine (reads_expect _).bind ((readsNum_decimal _).bind ?_ (by simp))
  rw [if_neg (by simp)]
  refine (reads_expect _).bind ((readsNum_decimal _).bind ?_ (by simp))
  refine (reads_expect _).bind ((readsNum_decimal _).bind ?_ (by simp))
  refine (reads_expect _).bind (a2.bind ?_)
  refine (reads_expect _).bind ((reads_mds _ h3).bind ?_)
  refine (reads_expect _).bind ((reads_alpha _).bind ?_)
  refine (reads_expect _).bind ((readsNum_decimal _).bind ?_ (by simp))
  refine (reads_expect _).bind ((readsNum_decimal _).bind ?_ (by simp))
  refine (reads_expect _).bind ((reads_optimized _ h1 h2 h3 h4).bind ?_)
  refine (reads_expect _).bind (o2.bind ?_)
  exact Reads.bind_last (reads_expect _) (Reads.pure _)

end Poseidon
