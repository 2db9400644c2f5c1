import Verif.Proofs.Eval377
import Verif.Props.Sage

/-!
# Known answers

Not properties: the values the tests of the repository expect, computed from the model by the kernel.  They check the model
(tables, domain separation, word order, permutation) against outputs of the real code.
-/

namespace Poseidon

/-- `Fq::from_le_bytes_mod_order(b"Penumbra_TestVec")` -/
def testVecDomainSep : Nat := 132119747078824730781760890905599829328

theorem kat_eval (i : Fin 7) (m c : List Nat) (hm : (shippedParams i).mds.toM rfl = natM (i.val + 2) (i.val + 2) m)
    (hc : (shippedParams i).arc.toM rfl = natM 39 (i.val + 2) c) (x : List Nat) :
    spec377 i (natV (i.val + 2) x) = some (natV (i.val + 2) (permN (i.val + 2) m c x)) := by
  rw [spec377_eq, perm377, ← shipped_mds_cauchy]
  refine congrArg some (permN_cast _ m c (shippedArc i) _ hm ?_ x)
  intro r j
  exact congrFun (congrFun hc r) j

/-- test `rate_1`, poseidon377/src/hash.rs:83 -/
theorem kat_rate_1 : hash1 (testVecDomainSep : Fq)
    ((7553885614632219548127688026174585776320152166623257619763178041781456016062 : Nat) : Fq) =
    .ok ((2337838243217876174544784248400816541933405738836087430664765452605435675740 : Nat) : Fq) := by
  obtain ⟨y, h1, h2⟩ := C02_hash_1 (testVecDomainSep : Fq)
    ((7553885614632219548127688026174585776320152166623257619763178041781456016062 : Nat) : Fq)
  rw [h2]
  have h3 := kat_eval 0 (canons rate1_mds) (canons rate1_arc) (vecM _ _ rfl) (vecM _ _ rfl)
    [testVecDomainSep, 7553885614632219548127688026174585776320152166623257619763178041781456016062]
  have h4 : natV 2 [testVecDomainSep, 7553885614632219548127688026174585776320152166623257619763178041781456016062] =
      ![(testVecDomainSep : Fq), ((7553885614632219548127688026174585776320152166623257619763178041781456016062 : Nat) : Fq)] := by
    funext i; fin_cases i <;> rfl
  have h5 : nth (permN 2 (canons rate1_mds) (canons rate1_arc)
    [testVecDomainSep, 7553885614632219548127688026174585776320152166623257619763178041781456016062]) 1 = 2337838243217876174544784248400816541933405738836087430664765452605435675740 := by decide +kernel
  have h6 := h1.symm.trans ((congrArg (spec377 0) h4.symm).trans h3)
  rw [Option.some.inj h6]
  exact congrArg (fun n : Nat => Except.ok (n : Fq)) h5

/-- test `rate_2`, poseidon377/src/hash.rs:101 -/
theorem kat_rate_2 : hash2 (testVecDomainSep : Fq)
    (((7553885614632219548127688026174585776320152166623257619763178041781456016062 : Nat) : Fq), ((2337838243217876174544784248400816541933405738836087430664765452605435675740 : Nat) : Fq)) =
    .ok ((4318449279293553393006719276941638490334729643330833590842693275258805886300 : Nat) : Fq) := by
  obtain ⟨y, h1, h2⟩ := C02_hash_2 (testVecDomainSep : Fq)
    (((7553885614632219548127688026174585776320152166623257619763178041781456016062 : Nat) : Fq), ((2337838243217876174544784248400816541933405738836087430664765452605435675740 : Nat) : Fq))
  rw [h2]
  have h3 := kat_eval 1 (canons rate2_mds) (canons rate2_arc) (vecM _ _ rfl) (vecM _ _ rfl)
    [testVecDomainSep, 7553885614632219548127688026174585776320152166623257619763178041781456016062, 2337838243217876174544784248400816541933405738836087430664765452605435675740]
  have h4 : natV 3 [testVecDomainSep, 7553885614632219548127688026174585776320152166623257619763178041781456016062, 2337838243217876174544784248400816541933405738836087430664765452605435675740] =
      ![(testVecDomainSep : Fq), ((7553885614632219548127688026174585776320152166623257619763178041781456016062 : Nat) : Fq), ((2337838243217876174544784248400816541933405738836087430664765452605435675740 : Nat) : Fq)] := by
    funext i; fin_cases i <;> rfl
  have h5 : nth (permN 3 (canons rate2_mds) (canons rate2_arc)
    [testVecDomainSep, 7553885614632219548127688026174585776320152166623257619763178041781456016062, 2337838243217876174544784248400816541933405738836087430664765452605435675740]) 1 = 4318449279293553393006719276941638490334729643330833590842693275258805886300 := by decide +kernel
  have h6 := h1.symm.trans ((congrArg (spec377 1) h4.symm).trans h3)
  rw [Option.some.inj h6]
  exact congrArg (fun n : Nat => Except.ok (n : Fq)) h5

/-- test `rate_3`, poseidon377/src/hash.rs:126 -/
theorem kat_rate_3 : hash3 (testVecDomainSep : Fq)
    (((7553885614632219548127688026174585776320152166623257619763178041781456016062 : Nat) : Fq), ((2337838243217876174544784248400816541933405738836087430664765452605435675740 : Nat) : Fq), ((4318449279293553393006719276941638490334729643330833590842693275258805886300 : Nat) : Fq)) =
    .ok ((2884734248868891876687246055367204388444877057000108043377667455104051576315 : Nat) : Fq) := by
  obtain ⟨y, h1, h2⟩ := C02_hash_3 (testVecDomainSep : Fq)
    (((7553885614632219548127688026174585776320152166623257619763178041781456016062 : Nat) : Fq), ((2337838243217876174544784248400816541933405738836087430664765452605435675740 : Nat) : Fq), ((4318449279293553393006719276941638490334729643330833590842693275258805886300 : Nat) : Fq))
  rw [h2]
  have h3 := kat_eval 2 (canons rate3_mds) (canons rate3_arc) (vecM _ _ rfl) (vecM _ _ rfl)
    [testVecDomainSep, 7553885614632219548127688026174585776320152166623257619763178041781456016062, 2337838243217876174544784248400816541933405738836087430664765452605435675740, 4318449279293553393006719276941638490334729643330833590842693275258805886300]
  have h4 : natV 4 [testVecDomainSep, 7553885614632219548127688026174585776320152166623257619763178041781456016062, 2337838243217876174544784248400816541933405738836087430664765452605435675740, 4318449279293553393006719276941638490334729643330833590842693275258805886300] =
      ![(testVecDomainSep : Fq), ((7553885614632219548127688026174585776320152166623257619763178041781456016062 : Nat) : Fq), ((2337838243217876174544784248400816541933405738836087430664765452605435675740 : Nat) : Fq), ((4318449279293553393006719276941638490334729643330833590842693275258805886300 : Nat) : Fq)] := by
    funext i; fin_cases i <;> rfl
  have h5 : nth (permN 4 (canons rate3_mds) (canons rate3_arc)
    [testVecDomainSep, 7553885614632219548127688026174585776320152166623257619763178041781456016062, 2337838243217876174544784248400816541933405738836087430664765452605435675740, 4318449279293553393006719276941638490334729643330833590842693275258805886300]) 1 = 2884734248868891876687246055367204388444877057000108043377667455104051576315 := by decide +kernel
  have h6 := h1.symm.trans ((congrArg (spec377 2) h4.symm).trans h3)
  rw [Option.some.inj h6]
  exact congrArg (fun n : Nat => Except.ok (n : Fq)) h5

/-- test `rate_4`, poseidon377/src/hash.rs:155 -/
theorem kat_rate_4 : hash4 (testVecDomainSep : Fq)
    (((7553885614632219548127688026174585776320152166623257619763178041781456016062 : Nat) : Fq), ((2337838243217876174544784248400816541933405738836087430664765452605435675740 : Nat) : Fq), ((4318449279293553393006719276941638490334729643330833590842693275258805886300 : Nat) : Fq), ((2884734248868891876687246055367204388444877057000108043377667455104051576315 : Nat) : Fq)) =
    .ok ((5235431038142849831913898188189800916077016298531443239266169457588889298166 : Nat) : Fq) := by
  obtain ⟨y, h1, h2⟩ := C02_hash_4 (testVecDomainSep : Fq)
    (((7553885614632219548127688026174585776320152166623257619763178041781456016062 : Nat) : Fq), ((2337838243217876174544784248400816541933405738836087430664765452605435675740 : Nat) : Fq), ((4318449279293553393006719276941638490334729643330833590842693275258805886300 : Nat) : Fq), ((2884734248868891876687246055367204388444877057000108043377667455104051576315 : Nat) : Fq))
  rw [h2]
  have h3 := kat_eval 3 (canons rate4_mds) (canons rate4_arc) (vecM _ _ rfl) (vecM _ _ rfl)
    [testVecDomainSep, 7553885614632219548127688026174585776320152166623257619763178041781456016062, 2337838243217876174544784248400816541933405738836087430664765452605435675740, 4318449279293553393006719276941638490334729643330833590842693275258805886300, 2884734248868891876687246055367204388444877057000108043377667455104051576315]
  have h4 : natV 5 [testVecDomainSep, 7553885614632219548127688026174585776320152166623257619763178041781456016062, 2337838243217876174544784248400816541933405738836087430664765452605435675740, 4318449279293553393006719276941638490334729643330833590842693275258805886300, 2884734248868891876687246055367204388444877057000108043377667455104051576315] =
      ![(testVecDomainSep : Fq), ((7553885614632219548127688026174585776320152166623257619763178041781456016062 : Nat) : Fq), ((2337838243217876174544784248400816541933405738836087430664765452605435675740 : Nat) : Fq), ((4318449279293553393006719276941638490334729643330833590842693275258805886300 : Nat) : Fq), ((2884734248868891876687246055367204388444877057000108043377667455104051576315 : Nat) : Fq)] := by
    funext i; fin_cases i <;> rfl
  have h5 : nth (permN 5 (canons rate4_mds) (canons rate4_arc)
    [testVecDomainSep, 7553885614632219548127688026174585776320152166623257619763178041781456016062, 2337838243217876174544784248400816541933405738836087430664765452605435675740, 4318449279293553393006719276941638490334729643330833590842693275258805886300, 2884734248868891876687246055367204388444877057000108043377667455104051576315]) 1 = 5235431038142849831913898188189800916077016298531443239266169457588889298166 := by decide +kernel
  have h6 := h1.symm.trans ((congrArg (spec377 3) h4.symm).trans h3)
  rw [Option.some.inj h6]
  exact congrArg (fun n : Nat => Except.ok (n : Fq)) h5

/-- test `rate_5`, poseidon377/src/hash.rs:188 -/
theorem kat_rate_5 : hash5 (testVecDomainSep : Fq)
    (((7553885614632219548127688026174585776320152166623257619763178041781456016062 : Nat) : Fq), ((2337838243217876174544784248400816541933405738836087430664765452605435675740 : Nat) : Fq), ((4318449279293553393006719276941638490334729643330833590842693275258805886300 : Nat) : Fq), ((2884734248868891876687246055367204388444877057000108043377667455104051576315 : Nat) : Fq), ((5235431038142849831913898188189800916077016298531443239266169457588889298166 : Nat) : Fq)) =
    .ok ((66948599770858083122195578203282720327054804952637730715402418442993895152 : Nat) : Fq) := by
  obtain ⟨y, h1, h2⟩ := C02_hash_5 (testVecDomainSep : Fq)
    (((7553885614632219548127688026174585776320152166623257619763178041781456016062 : Nat) : Fq), ((2337838243217876174544784248400816541933405738836087430664765452605435675740 : Nat) : Fq), ((4318449279293553393006719276941638490334729643330833590842693275258805886300 : Nat) : Fq), ((2884734248868891876687246055367204388444877057000108043377667455104051576315 : Nat) : Fq), ((5235431038142849831913898188189800916077016298531443239266169457588889298166 : Nat) : Fq))
  rw [h2]
  have h3 := kat_eval 4 (canons rate5_mds) (canons rate5_arc) (vecM _ _ rfl) (vecM _ _ rfl)
    [testVecDomainSep, 7553885614632219548127688026174585776320152166623257619763178041781456016062, 2337838243217876174544784248400816541933405738836087430664765452605435675740, 4318449279293553393006719276941638490334729643330833590842693275258805886300, 2884734248868891876687246055367204388444877057000108043377667455104051576315, 5235431038142849831913898188189800916077016298531443239266169457588889298166]
  have h4 : natV 6 [testVecDomainSep, 7553885614632219548127688026174585776320152166623257619763178041781456016062, 2337838243217876174544784248400816541933405738836087430664765452605435675740, 4318449279293553393006719276941638490334729643330833590842693275258805886300, 2884734248868891876687246055367204388444877057000108043377667455104051576315, 5235431038142849831913898188189800916077016298531443239266169457588889298166] =
      ![(testVecDomainSep : Fq), ((7553885614632219548127688026174585776320152166623257619763178041781456016062 : Nat) : Fq), ((2337838243217876174544784248400816541933405738836087430664765452605435675740 : Nat) : Fq), ((4318449279293553393006719276941638490334729643330833590842693275258805886300 : Nat) : Fq), ((2884734248868891876687246055367204388444877057000108043377667455104051576315 : Nat) : Fq), ((5235431038142849831913898188189800916077016298531443239266169457588889298166 : Nat) : Fq)] := by
    funext i; fin_cases i <;> rfl
  have h5 : nth (permN 6 (canons rate5_mds) (canons rate5_arc)
    [testVecDomainSep, 7553885614632219548127688026174585776320152166623257619763178041781456016062, 2337838243217876174544784248400816541933405738836087430664765452605435675740, 4318449279293553393006719276941638490334729643330833590842693275258805886300, 2884734248868891876687246055367204388444877057000108043377667455104051576315, 5235431038142849831913898188189800916077016298531443239266169457588889298166]) 1 = 66948599770858083122195578203282720327054804952637730715402418442993895152 := by decide +kernel
  have h6 := h1.symm.trans ((congrArg (spec377 4) h4.symm).trans h3)
  rw [Option.some.inj h6]
  exact congrArg (fun n : Nat => Except.ok (n : Fq)) h5

/-- test `rate_6`, poseidon377/src/hash.rs:225 -/
theorem kat_rate_6 : hash6 (testVecDomainSep : Fq)
    (((7553885614632219548127688026174585776320152166623257619763178041781456016062 : Nat) : Fq), ((2337838243217876174544784248400816541933405738836087430664765452605435675740 : Nat) : Fq), ((4318449279293553393006719276941638490334729643330833590842693275258805886300 : Nat) : Fq), ((2884734248868891876687246055367204388444877057000108043377667455104051576315 : Nat) : Fq), ((5235431038142849831913898188189800916077016298531443239266169457588889298166 : Nat) : Fq), ((66948599770858083122195578203282720327054804952637730715402418442993895152 : Nat) : Fq)) =
    .ok ((6797655301930638258044003960605211404784492298673033525596396177265014216269 : Nat) : Fq) := by
  obtain ⟨y, h1, h2⟩ := C02_hash_6 (testVecDomainSep : Fq)
    (((7553885614632219548127688026174585776320152166623257619763178041781456016062 : Nat) : Fq), ((2337838243217876174544784248400816541933405738836087430664765452605435675740 : Nat) : Fq), ((4318449279293553393006719276941638490334729643330833590842693275258805886300 : Nat) : Fq), ((2884734248868891876687246055367204388444877057000108043377667455104051576315 : Nat) : Fq), ((5235431038142849831913898188189800916077016298531443239266169457588889298166 : Nat) : Fq), ((66948599770858083122195578203282720327054804952637730715402418442993895152 : Nat) : Fq))
  rw [h2]
  have h3 := kat_eval 5 (canons rate6_mds) (canons rate6_arc) (vecM _ _ rfl) (vecM _ _ rfl)
    [testVecDomainSep, 7553885614632219548127688026174585776320152166623257619763178041781456016062, 2337838243217876174544784248400816541933405738836087430664765452605435675740, 4318449279293553393006719276941638490334729643330833590842693275258805886300, 2884734248868891876687246055367204388444877057000108043377667455104051576315, 5235431038142849831913898188189800916077016298531443239266169457588889298166, 66948599770858083122195578203282720327054804952637730715402418442993895152]
  have h4 : natV 7 [testVecDomainSep, 7553885614632219548127688026174585776320152166623257619763178041781456016062, 2337838243217876174544784248400816541933405738836087430664765452605435675740, 4318449279293553393006719276941638490334729643330833590842693275258805886300, 2884734248868891876687246055367204388444877057000108043377667455104051576315, 5235431038142849831913898188189800916077016298531443239266169457588889298166, 66948599770858083122195578203282720327054804952637730715402418442993895152] =
      ![(testVecDomainSep : Fq), ((7553885614632219548127688026174585776320152166623257619763178041781456016062 : Nat) : Fq), ((2337838243217876174544784248400816541933405738836087430664765452605435675740 : Nat) : Fq), ((4318449279293553393006719276941638490334729643330833590842693275258805886300 : Nat) : Fq), ((2884734248868891876687246055367204388444877057000108043377667455104051576315 : Nat) : Fq), ((5235431038142849831913898188189800916077016298531443239266169457588889298166 : Nat) : Fq), ((66948599770858083122195578203282720327054804952637730715402418442993895152 : Nat) : Fq)] := by
    funext i; fin_cases i <;> rfl
  have h5 : nth (permN 7 (canons rate6_mds) (canons rate6_arc)
    [testVecDomainSep, 7553885614632219548127688026174585776320152166623257619763178041781456016062, 2337838243217876174544784248400816541933405738836087430664765452605435675740, 4318449279293553393006719276941638490334729643330833590842693275258805886300, 2884734248868891876687246055367204388444877057000108043377667455104051576315, 5235431038142849831913898188189800916077016298531443239266169457588889298166, 66948599770858083122195578203282720327054804952637730715402418442993895152]) 1 = 6797655301930638258044003960605211404784492298673033525596396177265014216269 := by decide +kernel
  have h6 := h1.symm.trans ((congrArg (spec377 5) h4.symm).trans h3)
  rw [Option.some.inj h6]
  exact congrArg (fun n : Nat => Except.ok (n : Fq)) h5

/-- test `check_optimized_impl_vs_sage`, poseidon-consistency/src/lib.rs:17-41 -/
theorem kat_sage : sageScript.perm ![0, 1, 2] = .ok ![((6368779772888548211318735707249600947486536081021109980085678920065117075165 : Nat) : Fq),
    ((546637332213889354237126997303352456465330747031466737868777261691321847212 : Nat) : Fq),
    ((1488544471679348337017344865262529731114801536476862121626711131361325263279 : Nat) : Fq)] := by
  have h3 := kat_eval 1 (canons rate2_mds) (canons rate2_arc) (vecM _ _ rfl) (vecM _ _ rfl) [0, 1, 2]
  have h4 : natV 3 [0, 1, 2] = ![0, 1, 2] := by
    funext i; fin_cases i <;> simp [natV, nth]
  have h5 : permN 3 (canons rate2_mds) (canons rate2_arc) [0, 1, 2] =
      [6368779772888548211318735707249600947486536081021109980085678920065117075165,
       546637332213889354237126997303352456465330747031466737868777261691321847212,
       1488544471679348337017344865262529731114801536476862121626711131361325263279] := by decide +kernel
  rw [C65_optimized _ sageScript_valid, sageScript_perm377]
  have h6 := (spec377_eq 1 ![0, 1, 2]).symm.trans ((congrArg (spec377 1) h4.symm).trans h3)
  refine congrArg Except.ok ((Option.some.inj h6).trans ?_)
  show natV 3 (permN 3 _ _ _) = _
  rw [h5]
  funext i; fin_cases i <;> rfl

end Poseidon
