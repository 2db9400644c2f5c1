import Verif.Model.GenRounds
import Verif.Proofs.GenFloat
import Verif.Proofs.Loops
import Mathlib.Data.Nat.Choose.Basic

/-!
# The search for round numbers, the running binomial coefficient, the blocks of `log2`
-/

namespace Poseidon

/-! ### The search -/

/-- The candidates of the search. -/
def Candidate (r : RoundNumbers) : Prop := 1 ≤ r.rP ∧ r.rP < 400 ∧ 4 ≤ r.rF ∧ r.rF < 100

theorem applySecurityMargin_eq {r : RoundNumbers} (h : Candidate r) :
    applySecurityMargin r = ⟨(43 * r.rP + 39) / 40, r.rF + 2⟩ := by
  have := margin_exact h.1 h.2.1
  simp only [applySecurityMargin, RoundNumbers.partialRounds, RoundNumbers.full, asUsize, this]
  rw [Int.cast_natCast, Nat.floor_natCast]

/-- S-box count of a candidate after the margin. -/
noncomputable def candCost (t : Nat) (r : RoundNumbers) : Nat := sboxCount (applySecurityMargin r) t

theorem candCost_eq {t : Nat} {r : RoundNumbers} (h : Candidate r) :
    candCost t r = t * (r.rF + 2) + (43 * r.rP + 39) / 40 := by
  rw [candCost, applySecurityMargin_eq h]; rfl

/-- `r` is at least as good as `r'`. -/
def AsGood (t : Nat) (r r' : RoundNumbers) : Prop :=
  candCost t r < candCost t r' ∨ (candCost t r = candCost t r' ∧ r.rF ≤ r'.rF)

theorem AsGood.refl (t : Nat) (r : RoundNumbers) : AsGood t r r := Or.inr ⟨rfl, le_rfl⟩

theorem AsGood.trans {t : Nat} {a b c : RoundNumbers} (h1 : AsGood t a b) (h2 : AsGood t b c) : AsGood t a c := by
  unfold AsGood at *; omega

/-- The state after the candidates in `seen`. -/
def BestOf (secure : RoundNumbers → Bool) (t : Nat) (seen : RoundNumbers → Prop) (st : SearchState) : Prop :=
  (st = ⟨none, usizeMax, usizeMax⟩ ∧ ∀ r, seen r → secure r = false) ∨
  (∃ r, seen r ∧ secure r = true ∧ st = ⟨some (applySecurityMargin r), candCost t r, r.rF⟩ ∧
    ∀ r', seen r' → secure r' = true → AsGood t r r')

theorem BestOf.congr {secure : RoundNumbers → Bool} {t : Nat} {seen seen' : RoundNumbers → Prop} {st : SearchState}
    (h : BestOf secure t seen st) (he : ∀ r, seen r ↔ seen' r) : BestOf secure t seen' st := by
  have : seen = seen' := funext fun r => propext (he r)
  exact this ▸ h

theorem BestOf.step {secure : RoundNumbers → Bool} {t : Nat} {seen : RoundNumbers → Prop} {st : SearchState}
    (h : BestOf secure t seen st) (r : RoundNumbers) (hc : candCost t r < usizeMax) :
    BestOf secure t (fun x => seen x ∨ x = r)
      (if secure r = true then
        (if candCost t r < st.cost ∨ (candCost t r = st.cost ∧ r.rF < st.costRf) then
          ⟨some (applySecurityMargin r), candCost t r, r.rF⟩ else st) else st) := by
  by_cases hs : secure r = true
  · rw [if_pos hs]
    rcases h with ⟨rfl, hn⟩ | ⟨b, hb1, hb2, rfl, hb3⟩
    · rw [if_pos (Or.inl hc)]
      refine Or.inr ⟨r, Or.inr rfl, hs, rfl, ?_⟩
      rintro r' (h' | rfl) hs'
      · rw [hn r' h'] at hs'; exact absurd hs' (by simp)
      · exact AsGood.refl _ _
    · dsimp only
      split_ifs with hb
      · refine Or.inr ⟨r, Or.inr rfl, hs, rfl, ?_⟩
        rintro r' (h' | rfl) hs'
        · refine AsGood.trans ?_ (hb3 r' h' hs')
          unfold AsGood; omega
        · exact AsGood.refl _ _
      · refine Or.inr ⟨b, Or.inl hb1, hb2, rfl, ?_⟩
        rintro r' (h' | rfl) hs'
        · exact hb3 r' h' hs'
        · unfold AsGood; omega
  · rw [if_neg hs]
    rcases h with ⟨rfl, hn⟩ | ⟨b, hb1, hb2, rfl, hb3⟩
    · refine Or.inl ⟨rfl, ?_⟩
      rintro r' (h' | rfl)
      · exact hn r' h'
      · simpa using hs
    · refine Or.inr ⟨b, Or.inl hb1, hb2, rfl, ?_⟩
      rintro r' (h' | rfl) hs'
      · exact hb3 r' h' hs'
      · exact absurd hs' hs

theorem candCost_lt {t : Nat} {r : RoundNumbers} (h : Candidate r) (ht : 101 * t + 429 < usizeMax) :
    candCost t r < usizeMax := by
  rw [candCost_eq h]
  obtain ⟨h1, h2, h3, h4⟩ := h
  have : t * (r.rF + 2) ≤ t * 101 := Nat.mul_le_mul_left _ (by omega)
  omega

/-- What the search returns. -/
theorem roundSearch_spec {isSecure : RoundNumbers → R Bool} {secure : RoundNumbers → Bool} {t : Nat}
    (hs : ∀ r, Candidate r → isSecure r = .ok (secure r)) (ht : 101 * t + 429 < usizeMax) :
    (roundSearch isSecure t = .error .unwrapNone ∧ ∀ r, Candidate r → secure r = false) ∨
    (∃ r, Candidate r ∧ secure r = true ∧ roundSearch isSecure t = .ok (applySecurityMargin r) ∧
      ∀ r', Candidate r' → secure r' = true → AsGood t r r') := by
  obtain ⟨st, hst, hb⟩ := forRange_spec
    (Inv := fun p st => BestOf secure t (fun r => Candidate r ∧ r.rP < p) st)
    (lo := 1) (hi := 400) (s := (⟨none, usizeMax, usizeMax⟩ : SearchState))
    (body := fun rP st =>
      forRange 4 100 st fun rF st => do
        let s ← isSecure { rF := rF, rP := rP }
        if !s then return st
        else
          let candidate := applySecurityMargin { rF := rF, rP := rP }
          let candidateCost := sboxCount candidate t
          if candidateCost < st.cost ∨ (candidateCost = st.cost ∧ rF < st.costRf) then
            return ⟨some candidate, candidateCost, rF⟩
          else return st)
    (by norm_num) (Or.inl ⟨rfl, fun r ⟨h1, h2⟩ => absurd h1.1 (by omega)⟩) (by
      intro p st hp1 hp2 hinv
      obtain ⟨st', h1, h2⟩ := forRange_spec
        (Inv := fun f st => BestOf secure t
          (fun r => Candidate r ∧ (r.rP < p ∨ (r.rP = p ∧ r.rF < f))) st)
        (lo := 4) (hi := 100) (s := st)
        (body := fun rF st => do
          let s ← isSecure { rF := rF, rP := p }
          if !s then return st
          else
            let candidate := applySecurityMargin { rF := rF, rP := p }
            let candidateCost := sboxCount candidate t
            if candidateCost < st.cost ∨ (candidateCost = st.cost ∧ rF < st.costRf) then
              return ⟨some candidate, candidateCost, rF⟩
            else return st)
        (by norm_num) (hinv.congr fun r => by
          constructor
          · rintro ⟨h1, h2⟩; exact ⟨h1, Or.inl h2⟩
          · rintro ⟨h1, h2 | ⟨_, h2⟩⟩
            · exact ⟨h1, h2⟩
            · exact absurd h1.2.2.1 (by omega)) (by
          intro f st hf1 hf2 hinv
          have hcand : Candidate ⟨p, f⟩ := ⟨hp1, hp2, hf1, hf2⟩
          have hstep := hinv.step ⟨p, f⟩ (candCost_lt hcand ht)
          refine ⟨_, ?_, hstep.congr fun r => ?_⟩
          · rw [hs _ hcand]
            show (if (!secure ⟨p, f⟩) = true then _ else _) = _
            cases hsec : secure ⟨p, f⟩
            · rfl
            · simp only [Bool.not_true, Bool.false_eq_true, if_false, if_true]
              change (if candCost t ⟨p, f⟩ < st.cost ∨ (candCost t ⟨p, f⟩ = st.cost ∧ f < st.costRf) then _ else _) =
                Except.ok (if candCost t ⟨p, f⟩ < st.cost ∨ (candCost t ⟨p, f⟩ = st.cost ∧ f < st.costRf) then _ else _)
              split_ifs <;> rfl
          · obtain ⟨rP, rF⟩ := r
            simp only [RoundNumbers.mk.injEq]
            constructor
            · rintro (⟨h1, h2⟩ | ⟨rfl, rfl⟩)
              · exact ⟨h1, by omega⟩
              · exact ⟨hcand, by omega⟩
            · rintro ⟨h1, h2⟩
              by_cases he : rP = p ∧ rF = f
              · exact Or.inr he
              · exact Or.inl ⟨h1, by omega⟩)
      refine ⟨st', h1, h2.congr fun r => ?_⟩
      constructor
      · rintro ⟨h1, h2⟩; exact ⟨h1, by omega⟩
      · rintro ⟨h1, h2⟩; exact ⟨h1, by have := h1.2.2.2; omega⟩)
  have hrs : roundSearch isSecure t = (match st.choice with
      | some c => return c
      | none => .error .unwrapNone) := by
    rw [roundSearch, hst]; rfl
  rcases hb with ⟨rfl, hn⟩ | ⟨r, hr1, hr2, rfl, hr3⟩
  · exact Or.inl ⟨hrs, fun r hr => hn r ⟨hr, hr.2.1⟩⟩
  · exact Or.inr ⟨r, hr1.1, hr2, hrs, fun r' hr' => hr3 r' ⟨hr', hr'.2.1⟩⟩

/-- A best candidate determines the result. -/
theorem roundSearch_of_best {isSecure : RoundNumbers → R Bool} {secure : RoundNumbers → Bool} {t : Nat}
    (hs : ∀ r, Candidate r → isSecure r = .ok (secure r)) (ht : 101 * t + 429 < usizeMax)
    {r : RoundNumbers} (hc : Candidate r) (hr : secure r = true)
    (hb : ∀ r', Candidate r' → secure r' = true → AsGood t r r') :
    roundSearch isSecure t = .ok ⟨(43 * r.rP + 39) / 40, r.rF + 2⟩ := by
  rcases roundSearch_spec hs ht with ⟨_, hn⟩ | ⟨r', h1, h2, h3, h4⟩
  · exact absurd hr (by simp [hn r hc])
  · rw [h3, applySecurityMargin_eq h1]
    have a := hb r' h1 h2
    have b := h4 r hc hr
    unfold AsGood at a b
    have hf : r'.rF = r.rF := by omega
    have hcost : candCost t r' = candCost t r := by omega
    rw [candCost_eq h1, candCost_eq hc, hf] at hcost
    rw [hf, show (43 * r'.rP + 39) / 40 = (43 * r.rP + 39) / 40 by omega]

/-! ### The running binomial coefficient -/

theorem choose_step (u i : Nat) : Nat.choose u i * (u - i) / (i + 1) = Nat.choose u (i + 1) := by
  rw [← Nat.choose_succ_right_eq, Nat.mul_div_cancel _ (by omega)]

theorem binomialLoop_eq (M u : Nat) : ∀ (n i : Nat), i + n ≤ u →
    ∃ b, binomialLoop M u n i (Nat.choose u i) = .ok b ∧
      (b = true ↔ ∀ j, i < j → j ≤ i + n → 2 * numBits (Nat.choose u j) < M) := by
  intro n
  induction n with
  | zero =>
    intro i _
    exact ⟨true, rfl, fun _ j h1 h2 => by omega, fun _ => rfl⟩
  | succ n ih =>
    intro i hi
    rw [binomialLoop, usub, if_pos (by omega)]
    change ∃ b, (if M ≤ 2 * numBits (Nat.choose u i * (u - i) / (i + 1)) then _ else
      binomialLoop M u n (i + 1) (Nat.choose u i * (u - i) / (i + 1))) = _ ∧ _
    rw [choose_step u i]
    split_ifs with h
    · refine ⟨false, rfl, fun h => absurd h (by simp), fun hall => ?_⟩
      have := hall (i + 1) (by omega) (by omega)
      omega
    · obtain ⟨b, h1, h2⟩ := ih (i + 1) (by omega)
      refine ⟨b, h1, h2.trans ⟨fun hall j h1 h2 => ?_, fun hall j h1 h2 => hall j (by omega) (by omega)⟩⟩
      by_cases hj : j = i + 1
      · subst hj; omega
      · exact hall j (by omega) (by omega)

end Poseidon
