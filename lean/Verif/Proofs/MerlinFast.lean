import Verif.Proofs.KeccakFast
import Verif.Proofs.Loops
import Verif.Model.GenTranscript
import Verif.Proofs.ShippedCheck

/-! # The transcript for kernel evaluation

Functions on the state, position and start of the running operation (`K3`), and their relation to the model.
-/

set_option linter.unusedSectionVars false

namespace Poseidon

/-- A function of state, `pos` and `pos_begin`. -/
abbrev K3 (α : Type) := Nat → Nat → Nat → α

variable {α : Type}

attribute [local irreducible] keccakF1600 keccakFast

/-- Apply to a STROBE state. -/
def onS (k : K3 α) (s : Strobe) : α := k s.state s.pos s.posBegin

/-- `st ^ (b << 8 pos)` -/
def xorByteF (st pos b : Nat) : Nat := Nat.xor st (Nat.shiftLeft b (Nat.mul 8 pos))

/-- `run_f`, then `k`. -/
def runFF (k : K3 α) : K3 α := fun st pos pb =>
  keccakFast (xorByteF (xorByteF (xorByteF st pos pb) (Nat.succ pos) 4) 167 128) fun st => k st 0 0

/-- Advance, then `k`. -/
def advanceF (k : K3 α) : K3 α := fun st pos pb =>
  force (Nat.succ pos) fun pos => Bool.rec (motive := fun _ => α) (k st pos pb) (runFF k st pos pb) (Nat.beq pos 166)

/-- `absorb`, then `k`. -/
def absorbF (k : K3 α) (data : List Nat) : K3 α :=
  List.rec (motive := fun _ => K3 α) k
    (fun b _ ih st pos pb => force (xorByteF st pos b) fun st => advanceF ih st pos pb) data

/-- `squeeze`, then `k` of the number read. -/
def squeezeF (k : Nat → K3 α) (n : Nat) : Nat → Nat → K3 α :=
  Nat.rec (motive := fun _ => Nat → Nat → K3 α) (fun acc _ => k acc)
    (fun _ ih acc mul st pos pb =>
      force (Nat.mod (Nat.shiftRight st (Nat.mul 8 pos)) 256) fun b =>
      force (Nat.add acc (Nat.mul mul b)) fun acc =>
      force (Nat.mul mul 256) fun mul =>
      force (xorByteF st pos b) fun st => advanceF (ih acc mul) st pos pb) n

/-- `begin_op` without `force_f`, then `k`. -/
def beginF (k : K3 α) (flags : Nat) : K3 α := fun st pos pb =>
  absorbF k [pb, flags] st pos (Nat.succ pos)

/-- `force_f` -/
def forceFF (k : K3 α) : K3 α := fun st pos pb =>
  Bool.rec (motive := fun _ => α) (runFF k st pos pb) (k st pos pb) (Nat.beq pos 0)

/-- `append_message`, then `k`. -/
def appendF (k : K3 α) (label len msg : List Nat) : K3 α :=
  beginF (absorbF (absorbF (beginF (absorbF k msg) 2) len) label) 18

/-- `challenge_bytes`, then `k` of the number read. -/
def challengeF (k : Nat → K3 α) (label len : List Nat) (n : Nat) : K3 α :=
  beginF (absorbF (absorbF (beginF (forceFF (squeezeF k n 0 1)) 7) len) label) 18

theorem runFF_eq (k : K3 α) (s : Strobe) : onS (runFF k) s = onS k s.runF := by
  simp only [onS, runFF, keccakFast_eq]
  rfl

theorem advanceF_eq (k : K3 α) (s : Strobe) : onS (advanceF k) s = onS k s.advance := by
  rw [onS, advanceF, force_eq, Strobe.advance]
  dsimp only
  by_cases h : s.pos + 1 = strobeR
  · rw [if_pos h, ← runFF_eq]
    have : Nat.beq (Nat.succ s.pos) 166 = true := by rw [Nat.beq_eq]; exact h
    rw [this]; rfl
  · rw [if_neg h]
    have : Nat.beq (Nat.succ s.pos) 166 = false := by
      rw [Bool.eq_false_iff, Ne, Nat.beq_eq]; exact h
    rw [this]; rfl

theorem absorbF_eq (k : K3 α) (data : List Nat) (s : Strobe) :
    onS (absorbF k data) s = onS k (s.absorb data) := by
  induction data generalizing s with
  | nil => rfl
  | cons b bs ih =>
    rw [Strobe.absorb, ← ih, ← advanceF_eq]
    exact force_eq (xorByteF s.state s.pos b) fun st => advanceF (absorbF k bs) st s.pos s.posBegin

theorem Strobe.runF_flags (s : Strobe) : s.runF.curFlags = s.curFlags := rfl

theorem Strobe.advance_flags (s : Strobe) : s.advance.curFlags = s.curFlags := by
  rw [Strobe.advance]
  split <;> rfl

theorem Strobe.absorb_flags (s : Strobe) (data : List Nat) : (s.absorb data).curFlags = s.curFlags := by
  induction data generalizing s with
  | nil => rfl
  | cons b bs ih => rw [Strobe.absorb, ih, Strobe.advance_flags]

theorem squeezeF_eq (k : Nat → K3 α) (n acc mul : Nat) (s : Strobe) :
    onS (squeezeF k n acc mul) s = onS (k (acc + mul * leValue (s.squeeze n).1)) (s.squeeze n).2 := by
  induction n generalizing acc mul s with
  | zero => rfl
  | succ n ih =>
    have h0 : onS (squeezeF k (n + 1) acc mul) s =
        force (Nat.mod (Nat.shiftRight s.state (Nat.mul 8 s.pos)) 256) fun b =>
        force (Nat.add acc (Nat.mul mul b)) fun acc =>
        force (Nat.mul mul 256) fun mul =>
        force (xorByteF s.state s.pos b) fun st => advanceF (squeezeF k n acc mul) st s.pos s.posBegin := rfl
    rw [h0, force_eq, force_eq, force_eq, force_eq]
    rw [Strobe.squeeze]
    dsimp only
    have h := advanceF_eq (squeezeF k n (acc + mul * getByte s.state s.pos) (mul * 256))
      { s with state := xorByte s.state s.pos (getByte s.state s.pos) }
    refine Eq.trans h ?_
    rw [ih, leValue]
    congr 2
    rw [Nat.mul_add, ← Nat.mul_assoc, Nat.add_assoc]

/-- `begin_op` for a new operation without the flags that force a permutation. -/
def Strobe.begin' (s : Strobe) (flags : Nat) : Strobe :=
  { s with posBegin := s.pos + 1, curFlags := flags }.absorb [s.posBegin, flags]

theorem Strobe.begin'_flags (s : Strobe) (flags : Nat) : (s.begin' flags).curFlags = flags := by
  rw [Strobe.begin', Strobe.absorb_flags]

theorem beginF_eq (k : K3 α) (flags : Nat) (s : Strobe) : onS (beginF k flags) s = onS k (s.begin' flags) := by
  rw [Strobe.begin', ← absorbF_eq]
  rfl

theorem metaAd_false (s : Strobe) (data : List Nat) : s.metaAd data false = .ok ((s.begin' 18).absorb data) := by
  rw [Strobe.metaAd, Strobe.beginOp]
  rfl

theorem metaAd_true (s : Strobe) (data : List Nat) (h : s.curFlags = 18) :
    s.metaAd data true = .ok (s.absorb data) := by
  rw [Strobe.metaAd, Strobe.beginOp, if_pos rfl, show flagM ||| flagA = 18 from rfl, if_pos h]
  rfl

theorem ad_false (s : Strobe) (data : List Nat) : s.ad data false = .ok ((s.begin' 2).absorb data) := by
  rw [Strobe.ad, Strobe.beginOp]
  rfl

theorem forceFF_eq (k : K3 α) (s : Strobe) :
    onS (forceFF k) s = onS k (if s.pos ≠ 0 then s.runF else s) := by
  rw [onS, forceFF]
  by_cases h : s.pos = 0
  · rw [if_neg (by simpa using h), h]; rw [onS, h]; rfl
  · have : Nat.beq s.pos 0 = false := by rw [Bool.eq_false_iff, Ne, Nat.beq_eq]; exact h
    rw [if_pos h, this, ← runFF_eq]; rfl

theorem prf_false (s : Strobe) (n : Nat) :
    s.prf n false = .ok ((if (s.begin' 7).pos ≠ 0 then (s.begin' 7).runF else s.begin' 7).squeeze n) := by
  rw [Strobe.prf, Strobe.beginOp]
  have h1 : flagI ||| flagA ||| flagC = 7 := rfl
  have h2 : (7 &&& flagT ≠ 0) = False := by decide
  have h3 : (7 &&& (flagC ||| flagK) ≠ 0) = True := by decide
  rw [h1, if_neg (by simp), if_neg (by rw [h2]; simp)]
  dsimp only
  by_cases h : (s.begin' 7).pos ≠ 0
  · rw [if_pos ⟨by rw [h3]; trivial, h⟩, if_pos h]; rfl
  · rw [if_neg (fun hc => h hc.2), if_neg h]; rfl

/-- `append_message` on states. -/
def Strobe.append' (s : Strobe) (label msg : List Nat) : Strobe :=
  ((((s.begin' 18).absorb label).absorb (leBytes 4 msg.length)).begin' 2).absorb msg

theorem appendMessage_eq (s : Strobe) (label msg : List Nat) (h : msg.length < 2 ^ 32) :
    appendMessage s label msg = .ok (s.append' label msg) := by
  rw [appendMessage, encodeUsizeAsU32, if_pos h, ok_bind, metaAd_false, ok_bind, metaAd_true, ok_bind, ad_false]
  · rfl
  · rw [Strobe.absorb_flags, Strobe.begin'_flags]

theorem appendF_eq (k : K3 α) (label msg : List Nat) (s : Strobe) :
    onS (appendF k label (leBytes 4 msg.length) msg) s = onS k (s.append' label msg) := by
  rw [appendF, beginF_eq, absorbF_eq, absorbF_eq, beginF_eq, absorbF_eq, Strobe.append']

theorem challenge_ok (s : Strobe) (label : List Nat) (n : Nat) (h : n < 2 ^ 32) :
    ∃ s', challengeBytes s label n = .ok s' := by
  rw [challengeBytes, encodeUsizeAsU32, if_pos h, ok_bind, metaAd_false, ok_bind, metaAd_true, ok_bind, prf_false]
  · exact ⟨_, rfl⟩
  · rw [Strobe.absorb_flags, Strobe.begin'_flags]

theorem challengeF_eq (k : Nat → K3 α) (label : List Nat) (n : Nat) (s : Strobe) (r : List Nat × Strobe)
    (h : n < 2 ^ 32) (hr : challengeBytes s label n = .ok r) :
    onS (challengeF k label (leBytes 4 n) n) s = onS (k (leValue r.1)) r.2 := by
  rw [challengeBytes, encodeUsizeAsU32, if_pos h, ok_bind, metaAd_false, ok_bind, metaAd_true, ok_bind, prf_false] at hr
  · cases hr
    rw [challengeF, beginF_eq, absorbF_eq, absorbF_eq, beginF_eq, forceFF_eq, squeezeF_eq, Nat.zero_add, Nat.one_mul]
  · rw [Strobe.absorb_flags, Strobe.begin'_flags]

/-! ## Drawing the constants -/

/-- Bytes of `"round-constant"`. -/
def lblConst : List Nat := [114, 111, 117, 110, 100, 45, 99, 111, 110, 115, 116, 97, 110, 116]

theorem lblConst_eq : asciiBytes "round-constant" = lblConst := by decide +kernel

/-- Compare the constants drawn with a list, then `k`. -/
def drawK (k : K3 Bool) (len : List Nat) (m : Nat) (l : List Nat) : K3 Bool :=
  List.rec (motive := fun _ => K3 Bool) k
    (fun c _ ih => challengeF (fun n st pos pb =>
      Bool.rec (motive := fun _ => Bool) false (ih st pos pb) (Nat.beq (Nat.mod n m) c)) lblConst len 48) l

/-- Compare the constants drawn with a list. -/
def drawF (len : List Nat) (m : Nat) (l : List Nat) : K3 Bool := drawK (fun _ _ _ => true) len m l

/-- The elements drawn from a state. -/
def drawn (F : Type) [Field F] (p : Nat) : Nat → Strobe → R (List F)
  | 0, _ => .ok []
  | n + 1, s => do
    let c ← roundConstant F p s
    let r ← drawn F p n c.2
    return c.1 :: r

theorem loop_drawn (F : Type) [Field F] (p : Nat) (n i : Nat) (acc : List F) (s : Strobe) :
    (loopN (fun _ (st : List F × Strobe) => do
      let c ← roundConstant F p st.2
      return (st.1 ++ [c.1], c.2)) n i (acc, s) >>= fun r => (pure r.1 : R (List F))) =
      (drawn F p n s >>= fun r => pure (acc ++ r)) := by
  induction n generalizing i acc s with
  | zero => show Except.ok acc = Except.ok (acc ++ []); rw [List.append_nil]
  | succ n ih =>
    rw [loopN, drawn, bind_assoc, bind_assoc, bind_assoc]
    congr 1
    funext c
    show (loopN _ n (i + 1) (acc ++ [c.1], c.2) >>= _) = _
    rw [ih, bind_assoc]
    congr 1
    funext r
    show Except.ok _ = Except.ok _
    simp

theorem drawF_sound {F : Type} [Field F] {p : Nat} [CharP F p] (hb : (numBits p + 135) / 8 = 48) (l : List Nat)
    (s : Strobe) (h : onS (drawF (leBytes 4 48) p l) s = true) :
    drawn F p l.length s = .ok (l.map Nat.cast) := by
  induction l generalizing s with
  | nil => rfl
  | cons c l ih =>
    obtain ⟨r, hr⟩ := challenge_ok s lblConst 48 (by omega)
    have h1 := challengeF_eq (fun n st pos pb =>
      Bool.rec (motive := fun _ => Bool) false (drawF (leBytes 4 48) p l st pos pb) (Nat.beq (Nat.mod n p) c))
      lblConst 48 s r (by omega) hr
    have h2 : onS (drawF (leBytes 4 48) p (c :: l)) s = _ := h1
    rw [h2] at h
    have h3 : Nat.beq (Nat.mod (leValue r.1) p) c = true ∧ onS (drawF (leBytes 4 48) p l) r.2 = true := by
      rw [onS] at h
      cases hbq : Nat.beq (Nat.mod (leValue r.1) p) c
      · rw [hbq] at h; exact absurd h (by simp)
      · rw [hbq] at h; exact ⟨rfl, h⟩
    have hc : leValue r.1 % p = c := Nat.eq_of_beq_eq_true h3.1
    have hcast : ((leValue r.1 : Nat) : F) = (c : F) := by
      rw [← hc, CharP.cast_eq_mod F p (leValue r.1)]
    rw [List.length_cons, drawn, roundConstant, hb, lblConst_eq, hr, ok_bind]
    show (drawn F p l.length r.2 >>= _) = _
    rw [ih r.2 h3.2]
    show Except.ok _ = Except.ok _
    rw [List.map_cons, ← hcast]

/-! ## The start of the transcript -/

/-- The states after the messages. -/
def Strobe.appendAll (s : Strobe) : List (List Nat × List Nat) → Strobe
  | [] => s
  | m :: ms => (s.append' m.1 m.2).appendAll ms

theorem forList_append (ms : List (List Nat × List Nat)) (s : Strobe) (h : ∀ m ∈ ms, m.2.length < 2 ^ 32) :
    forList ms s (fun m s => appendMessage s m.1 m.2) = .ok (s.appendAll ms) := by
  induction ms generalizing s with
  | nil => rfl
  | cons m ms ih =>
    rw [forList, appendMessage_eq _ _ _ (h m (by simp))]
    exact ih _ fun m hm => h m (by simp [hm])

/-- Append all messages, then `k`. -/
def appendAllF (k : K3 α) (ms : List (List Nat × List Nat)) : K3 α :=
  List.rec (motive := fun _ => K3 α) k (fun m _ ih => appendF ih m.1 (leBytes 4 m.2.length) m.2) ms

theorem appendAllF_eq (k : K3 α) (ms : List (List Nat × List Nat)) (s : Strobe) :
    onS (appendAllF k ms) s = onS k (s.appendAll ms) := by
  induction ms generalizing s with
  | nil => rfl
  | cons m ms ih =>
    rw [Strobe.appendAll, ← ih]
    exact appendF_eq _ _ _ _

/-- The state `Strobe128::new` starts from. -/
def strobeInit : Nat := leValue [1, 168, 1, 0, 1, 96, 83, 84, 82, 79, 66, 69, 118, 49, 46, 48, 46, 50]

/-- The transcript of `Transcript::new(b"round-constants")` and `domain_sep`, then `k`. -/
def startF (k : K3 α) (ms : List (List Nat × List Nat)) : α :=
  keccakFast strobeInit fun st =>
    beginF (absorbF (appendAllF k ms) [77, 101, 114, 108, 105, 110, 32, 118, 49, 46, 48]) 18 st 0 0

/-- `Strobe128::new` after its permutation call. -/
def Strobe.ofState (st : Nat) : Strobe := { state := st, pos := 0, posBegin := 0, curFlags := 0 }

theorem onS_ofState (k : K3 α) (st : Nat) : onS k (Strobe.ofState st) = k st 0 0 := rfl

theorem strobeNew_eq : Strobe.new (asciiBytes "Merlin v1.0") =
    .ok (((Strobe.ofState (keccakF1600 strobeInit)).begin' 18).absorb [77, 101, 114, 108, 105, 110, 32, 118, 49, 46, 48]) := by
  have h1 : leValue ([1, strobeR + 2, 1, 0, 1, 96] ++ asciiBytes "STROBEv1.0.2") = strobeInit := by decide +kernel
  have h2 : asciiBytes "Merlin v1.0" = [77, 101, 114, 108, 105, 110, 32, 118, 49, 46, 48] := by decide +kernel
  have h3 : ∀ l, Strobe.new l = (Strobe.ofState (keccakF1600
    (leValue ([1, strobeR + 2, 1, 0, 1, 96] ++ asciiBytes "STROBEv1.0.2")))).metaAd l false := fun _ => rfl
  rw [h3, h1, h2]
  exact metaAd_false _ _

/-- The state after `Strobe128::new(b"Merlin v1.0")`. -/
def merlinStart : Strobe :=
  ((Strobe.ofState (keccakF1600 strobeInit)).begin' 18).absorb [77, 101, 114, 108, 105, 110, 32, 118, 49, 46, 48]

theorem startF_eq (k : K3 α) (ms : List (List Nat × List Nat)) : startF k ms = onS k (merlinStart.appendAll ms) := by
  rw [startF, keccakFast_eq, ← appendAllF_eq, merlinStart, ← absorbF_eq, ← beginF_eq, onS_ofState]

attribute [irreducible] merlinStart

/-- All messages of the generator's transcript. -/
def allMessages (nlimbs : Nat) (input : GenInput) (rounds : RoundNumbers) (alpha : Alpha) :
    List (List Nat × List Nat) :=
  (asciiBytes "dom-sep", asciiBytes "round-constants") :: domainSepMessages nlimbs input rounds alpha

theorem leBytes_length (n x : Nat) : (leBytes n x).length = n := by
  induction n generalizing x with
  | zero => rfl
  | succ n ih => rw [leBytes, List.length_cons, ih]

theorem toBytesLe_length (a : Alpha) : a.toBytesLe.length = 4 := by cases a <;> rfl

theorem allMessages_short (nlimbs : Nat) (hn : nlimbs < 2 ^ 28) (input : GenInput) (rounds : RoundNumbers)
    (alpha : Alpha) : ∀ m ∈ allMessages nlimbs input rounds alpha, m.2.length < 2 ^ 32 := by
  have h1 : (asciiBytes "round-constants").length = 15 := by decide +kernel
  have h2 : (asciiBytes "poseidon-paramgen").length = 17 := by decide +kernel
  intro m hm
  simp only [allMessages, domainSepMessages, List.mem_cons, List.not_mem_nil, or_false] at hm
  rcases hm with rfl | rfl | rfl | rfl | rfl | rfl | rfl | rfl
  all_goals dsimp only
  · rw [h1]; omega
  · rw [h2]; omega
  · rw [leBytes_length]; omega
  · rw [leBytes_length]; omega
  · rw [leBytes_length]; omega
  · simp
  · simp
  · rw [toBytesLe_length]; omega

/-- `arcElements` in terms of states. -/
theorem arcElements_eq (F : Type) [Field F] (nlimbs : Nat) (hn : nlimbs < 2 ^ 28) (input : GenInput)
    (rounds : RoundNumbers) (alpha : Alpha) (n : Nat) :
    arcElements F nlimbs input rounds alpha n =
      drawn F input.p n (merlinStart.appendAll (allMessages nlimbs input rounds alpha)) := by
  have hsh := allMessages_short nlimbs hn input rounds alpha
  have hs : Strobe.new (asciiBytes "Merlin v1.0") = .ok merlinStart := by rw [strobeNew_eq, merlinStart]
  revert hs
  generalize merlinStart = s
  intro hs
  have h0 := appendMessage_eq s (asciiBytes "dom-sep") (asciiBytes "round-constants")
    (hsh (asciiBytes "dom-sep", asciiBytes "round-constants") List.mem_cons_self)
  have h1 := forList_append (domainSepMessages nlimbs input rounds alpha)
    (s.append' (asciiBytes "dom-sep") (asciiBytes "round-constants")) (fun m hm => hsh m (List.mem_cons_of_mem _ hm))
  have h2 : s.appendAll (allMessages nlimbs input rounds alpha) =
    (s.append' (asciiBytes "dom-sep") (asciiBytes "round-constants")).appendAll
      (domainSepMessages nlimbs input rounds alpha) := by rw [allMessages, Strobe.appendAll]
  rw [h2, arcElements, transcriptNew, hs, ok_bind, h0, ok_bind, domainSep, h1, ok_bind]
  generalize (s.append' (asciiBytes "dom-sep") (asciiBytes "round-constants")).appendAll
      (domainSepMessages nlimbs input rounds alpha) = s'
  refine (loop_drawn F input.p n 0 [] s').trans ?_
  simp only [List.nil_append]
  exact bind_pure _

/-! ## Splitting the evaluation -/

/-- Test for a given state. -/
def isState (S : Nat × Nat × Nat) : K3 Bool := fun st pos pb =>
  Nat.beq st S.1 && (Nat.beq pos S.2.1 && Nat.beq pb S.2.2)

theorem isState_iff {S : Nat × Nat × Nat} {st pos pb : Nat} (h : isState S st pos pb = true) :
    (st, pos, pb) = S := by
  simp only [isState, Bool.and_eq_true, Nat.beq_eq] at h
  obtain ⟨h1, h2, h3⟩ := h
  rw [h1, h2, h3]

theorem drawK_append (k : K3 Bool) (len : List Nat) (m : Nat) (l₁ l₂ : List Nat) :
    drawK k len m (l₁ ++ l₂) = drawK (drawK k len m l₂) len m l₁ := by
  induction l₁ with
  | nil => rfl
  | cons c l₁ ih =>
    show challengeF (fun n st pos pb =>
      Bool.rec (motive := fun _ => Bool) false (drawK k len m (l₁ ++ l₂) st pos pb) (Nat.beq (Nat.mod n m) c))
      lblConst len 48 = _
    rw [ih]
    rfl

/-- Run `k` at a state. -/
def atS {α : Type} (k : K3 α) (S : Nat × Nat × Nat) : α := k S.1 S.2.1 S.2.2

theorem drawK_mono {k₁ k₂ : K3 Bool} (h : ∀ s, onS k₁ s = true → onS k₂ s = true) (m : Nat) (l : List Nat)
    (s : Strobe) (hs : onS (drawK k₁ (leBytes 4 48) m l) s = true) : onS (drawK k₂ (leBytes 4 48) m l) s = true := by
  induction l generalizing s with
  | nil => exact h s hs
  | cons c l ih =>
    obtain ⟨r, hr⟩ := challenge_ok s lblConst 48 (by omega)
    have e (k : K3 Bool) : onS (drawK k (leBytes 4 48) m (c :: l)) s =
        Bool.rec (motive := fun _ => Bool) false (onS (drawK k (leBytes 4 48) m l) r.2)
          (Nat.beq (Nat.mod (leValue r.1) m) c) :=
      challengeF_eq (fun n st pos pb =>
        Bool.rec (motive := fun _ => Bool) false (drawK k (leBytes 4 48) m l st pos pb) (Nat.beq (Nat.mod n m) c))
        lblConst 48 s r (by omega) hr
    rw [e] at hs ⊢
    cases hb : Nat.beq (Nat.mod (leValue r.1) m) c
    · rw [hb] at hs; exact hs
    · rw [hb] at hs; exact ih r.2 hs

/-- One segment takes the state `S` to the state `S'`. -/
def checkSeg (m : Nat) (l : List Nat) (S S' : Nat × Nat × Nat) : Bool :=
  atS (drawK (isState S') (leBytes 4 48) m l) S

theorem checkSeg_cons {m : Nat} {l₁ l₂ : List Nat} {S S' : Nat × Nat × Nat} (h₁ : checkSeg m l₁ S S' = true)
    (h₂ : atS (drawF (leBytes 4 48) m l₂) S' = true) : atS (drawF (leBytes 4 48) m (l₁ ++ l₂)) S = true := by
  rw [drawF, drawK_append]
  refine drawK_mono (s := ⟨S.1, S.2.1, S.2.2, 0⟩) ?_ m l₁ h₁
  intro s hs
  have := isState_iff hs
  rw [← this] at h₂
  exact h₂

/-- The segments of a list taken `n` at a time, starting at segment `i`. -/
theorem checkSegs {m n : Nat} {l : List Nat} (S : Nat → Nat × Nat × Nat) (c i : Nat) (hl : l.length = n * (i + c))
    (h : ∀ j, j < i + c → checkSeg m ((l.drop (n * j)).take n) (S j) (S (j + 1)) = true) :
    atS (drawF (leBytes 4 48) m (l.drop (n * i))) (S i) = true := by
  induction c generalizing i with
  | zero =>
    have : l.drop (n * i) = [] := by rw [List.drop_eq_nil_iff]; rw [hl]; exact le_rfl
    rw [this]; rfl
  | succ c ih =>
    have e : l.drop (n * i) = (l.drop (n * i)).take n ++ l.drop (n * (i + 1)) := by
      rw [Nat.mul_succ, ← List.drop_drop, List.take_append_drop]
    rw [e]
    refine checkSeg_cons (h i (by omega)) (ih (i + 1) ?_ ?_)
    · rw [hl]; congr 1; omega
    · intro j hj; exact h j (by omega)

/-- The start takes the transcript to the state `S`. -/
def checkStart (ms : List (List Nat × List Nat)) (S : Nat × Nat × Nat) : Bool := startF (isState S) ms

theorem checkDraw_segs {ms : List (List Nat × List Nat)} {n c : Nat} {l : List Nat} (S : Nat → Nat × Nat × Nat)
    (hl : l.length = n * c) (h0 : checkStart ms (S 0) = true)
    (h : ∀ j, j < c → checkSeg q ((l.drop (n * j)).take n) (S j) (S (j + 1)) = true) :
    startF (drawF (leBytes 4 48) q l) ms = true := by
  have h1 := checkSegs S c 0 (by rw [hl, Nat.zero_add]) (by rwa [Nat.zero_add])
  rw [Nat.mul_zero, List.drop_zero] at h1
  rw [checkStart, startF_eq] at h0
  rw [startF_eq]
  have := isState_iff h0
  rw [← this] at h1
  exact h1

/-- The whole check for one table. -/
def checkDraw (ms : List (List Nat × List Nat)) (l : List Nat) : Bool := startF (drawF (leBytes 4 48) q l) ms

theorem checkDraw_sound (F : Type) [Field F] [CharP F q] (nlimbs : Nat) (hn : nlimbs < 2 ^ 28) (input : GenInput)
    (hp : input.p = q) (rounds : RoundNumbers) (alpha : Alpha) (l : List Nat)
    (h : checkDraw (allMessages nlimbs input rounds alpha) l = true) :
    arcElements F nlimbs input rounds alpha l.length = .ok (l.map Nat.cast) := by
  rw [arcElements_eq F nlimbs hn input rounds alpha, hp]
  rw [checkDraw, startF_eq] at h
  exact drawF_sound (by decide +kernel) l _ h

end Poseidon
