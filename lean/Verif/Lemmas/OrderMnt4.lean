import Verif.Lemmas.PointCount
import Verif.Lemmas.PrimesCof
import Verif.Props.GenMnt4
import Verif.Props.MulByQ

/-!
# The number of points of the groups of mnt4

The witnesses are points of prime order (or independent pairs of points of prime power order) for every prime dividing
the cofactor. The kernel computes with them.
-/
namespace Libff
set_option synthInstance.maxSize 2000
open mnt4_K

theorem mnt4_G1_rootless (x : mnt4_Fq) : x ^ 3 + 0 * x ^ 2 + mnt4_a * x + mnt4_b ≠ 0 :=
  have ra : R1 (NM.of mnt4_coeff_a_nat) mnt4_a := FpRel.cast (by decide +kernel)
  have hb : R1 (NM.of mnt4_coeff_b_nat) mnt4_b := FpRel.cast (by decide +kernel)
  rootlessCheck_sound o1 ra hb (fuel := 600) (N := mnt4_Fq_params.p) (Nat.card_eq_fintype_card.trans (Fp.card (P := mnt4_Fq_params)))
    (u := ⟨NM.of 221665976315543186402967464244807083376656117810908370882548382993675131865887018814965639, NM.of 138698749044750502443415810468043087051760100461244865759243230526474948231269583691869141, NM.of 62199281702883867968894280872921673882269224635355457850290417828504367401001459556846339⟩)
    (u' := ⟨Nat.cast 221665976315543186402967464244807083376656117810908370882548382993675131865887018814965639, Nat.cast 138698749044750502443415810468043087051760100461244865759243230526474948231269583691869141, Nat.cast 62199281702883867968894280872921673882269224635355457850290417828504367401001459556846339⟩)
    ⟨FpRel.cast (v := 221665976315543186402967464244807083376656117810908370882548382993675131865887018814965639) (by decide +kernel), FpRel.cast (v := 138698749044750502443415810468043087051760100461244865759243230526474948231269583691869141) (by decide +kernel),
      FpRel.cast (v := 62199281702883867968894280872921673882269224635355457850290417828504367401001459556846339) (by decide +kernel)⟩ (by decide +kernel) x

/-- The number of points of the curve of `mnt4_G1`. -/
theorem mnt4_G1_card : Nat.card (sw mnt4_a mnt4_b).Point = 1 * mnt4_Fr_params.p :=
  C52_mnt4_G1_generator.2.2.2.elim fun _ hP => card_of_odd (h := 1) (Nat.card_eq_fintype_card.trans (Fp.card (P := mnt4_Fq_params))) (by decide +kernel) (one_dvd _) hP.2 C52_mnt4_G1_generator.1 mnt4_G1_rootless (by decide +kernel)

/-- Witnesses for the prime factors of the cofactor. -/
def mnt4_G2_tests : List (OrdTest ((Nat × Nat) × (Nat × Nat))) := [
  .pair ((275778030807224475170251394824671744828990478033386971940489068538409772427627390343538059, 449371165023528782358440350979851782367555457790337447977132229590470122496920553846366315), (461211794891434301928411810696738108071556209994904059313476228389595237460863208528925320, 413106996447670866712793444235060724890800296928261757047310928416852668891631886731539297)) ((435684045603103477749872289354642228589576520197969882962482518646268387599980736827731037, 86585741795440075995475605239788869610666626920960621166362748463969693006218574921832204), (381231913815407062797905181196122261149143640258411549278577733137836304035378486139887011, 368458352197270830624039753578805673816721671830213589001377288833208411900332228903295373)) 5 0,
  .pair ((168883614982495821489674709618966724445885992115744260289607311095055677585937078498762762, 354674010407964230801365220881662591453970371808399847619793301508751905716294477608149320), (325378084405909603047150283109411811468310921739723950278644167485113260246276304224475608, 333055971934739622766986018286318581786829146861126739584482887244619056269568570485478162)) ((31480128209793328745663812617656841942621405648018515754721695412236017004518035692503194, 347414982458188184239070309332181963413155793408219864322232125824802454373414483984326754), (149966493783023967300114077157965313795090430179781204485982975882239872323245579474517297, 115574197100945130840398164559651716241647837806855675693832908815380039999855179603960496)) 67 0,
  .pair ((341329899786799884368956896797486277972390848039878390614152443855978437714022000565035939, 99734638413599654177303205081995452421873536012981072104092474538122072666658838189753035), (255065968573944725791849842193955305007251687164318372790324776655009936085649138704662283, 219311717225295106691714396977795246978887891230532548336885390098759520258004767397233604)) ((83008408918358385276870960494883320020841466927913129659976000624243244484990825824072730, 392891420352461721034344775990104935988153265615790552318512044307557256086875042773170971), (455768523446667590877822081995763978101240948061918704446320956734014604700740119881688382, 162594034219419927087009585419835978799053301479839748626187279221590232886474785045961223)) 167 0,
  .pair ((307780824606670902239154766744988089543557195099658041586191626915903267048169981327600470, 86141581922789487688196244358957802303997623680123756194128304825271061210138786016796233), (260413914736135030436063905473155742268720583132498581664031144032237562463613838098871167, 110514387862094850164722808194800178600725737154005683623966529349704533046614540734129335)) ((437709904461747598147196174366556290896782815711493784243611453548404060577328088762946938, 103776994862453223602334218494497144196586278414318092858869362574431219886936584594685169), (39723222912512923119165228252814120637944362185630214779365319458239403227743296843644129, 475877395824995524603243654524546678825916402253694505462468452881579039608675066373386462)) 263 0,
  .irr4 ((348859262453776181382150996620040940761669683918760201067315426126041691209887444903132836, 62085331318730578393450048907383186694205090100059098714281831114429280483583780358072655), (370147854908240334579325680839421479922112637614479740081617114947721822842352822396917086, 473509498443745960338510702023952087887006049791098842082094732948032804348518528736617284)) 46886843293762334669203941507635473727]

theorem mnt4_G2_h_dvd : mnt4_G2_h ∣ Nat.card (sw mnt4_twist_a mnt4_twist_b).Point :=
  have ra : R1 (NM.of mnt4_coeff_a_nat) mnt4_a := FpRel.cast (by decide +kernel)
  have rb : R1 (NM.of mnt4_coeff_b_nat) mnt4_b := FpRel.cast (by decide +kernel)
  have rta : R2 (mnt4TwistA (NM.of mnt4_coeff_a_nat)) mnt4_twist_a := ⟨o1.mul ra rβ, o1.zero⟩
  have rtb : R2 (mnt4TwistB (NM.of mnt4_coeff_b_nat)) mnt4_twist_b := ⟨o1.zero, o1.mul rb rβ⟩
  have hf : ∀ {x y}, R2 x y → R2 (Fp2.frobeniusMap (fun i => NM.of (mnt4_Fq2_frob_c1.getD i 0)) 1 x)
      (frobenius mnt4_Fq2 mnt4_Fq_params.p y) := fun {x y} h => by
    have h' : mnt4_G2_frob y = frobenius mnt4_Fq2 mnt4_Fq_params.p y := by
      have := C23_mnt4_Fq2 1 y
      rw [pow_one] at this
      rw [frobenius_def]; exact this
    rw [← h']
    exact ⟨h.1, o1.mul (FpRel.cast (v := mnt4_Fq2_frob_c1.getD 1 0) (by decide +kernel)) h.2⟩
  have hx : R2 (⟨NM.of mnt4_twist_mul_by_q_X_nat, 0⟩) (Quad.ofBase mnt4_q_X) := ⟨FpRel.cast (v := mnt4_twist_mul_by_q_X_nat) (by decide +kernel), o1.zero⟩
  have hy : R2 (⟨NM.of mnt4_twist_mul_by_q_Y_nat, 0⟩) (Quad.ofBase mnt4_q_Y) := ⟨FpRel.cast (v := mnt4_twist_mul_by_q_Y_nat) (by decide +kernel), o1.zero⟩
  have h := Proj.ordCheck_dvd o2 (W := (Nat × Nat) × (Nat × Nat)) (σ := frobenius mnt4_Fq2 mnt4_Fq_params.p) (f := Fp2.frobeniusMap (fun i => NM.of (mnt4_Fq2_frob_c1.getD i 0)) 1) hf (mA := mnt4MulByA (NM.of mnt4_coeff_a_nat)) (mA' := mnt4_G2_mul_by_a)
    (fun h => ⟨o1.mul (o1.mul ra rβ) h.1, o1.mul (o1.mul ra rβ) h.2⟩) (fun x => ((C36_mul_by_a mnt4_β mnt4_a mnt4_b).1 x).1) rta rtb hx hy
    (bnd := fun w => decide ((w.1.1 < mnt4_Fq_params.p ∧ w.1.2 < mnt4_Fq_params.p) ∧ (w.2.1 < mnt4_Fq_params.p ∧ w.2.2 < mnt4_Fq_params.p))) (dec := fun w => ⟨dec2 NM.of w.1, dec2 NM.of w.2, 1⟩)
    (fun w hw => by
      have hw := of_decide_eq_true hw
      exact ⟨⟨_, _, 1⟩, dec2_rel _ hw.1, dec2_rel _ hw.2, o2.one⟩)
    mnt4_G2_tests (List.forall_mem_cons.2 ⟨prime_5, List.forall_mem_cons.2 ⟨prime_67, List.forall_mem_cons.2 ⟨prime_167, List.forall_mem_cons.2 ⟨prime_263, List.forall_mem_cons.2 ⟨prime_c23, List.forall_mem_nil _⟩⟩⟩⟩⟩) (by decide +kernel)
  (show mnt4_G2_h = (mnt4_G2_tests.map OrdTest.factor).prod by decide +kernel) ▸ h

theorem mnt4_G2_rootless (x : mnt4_Fq2) : x ^ 3 + 0 * x ^ 2 + mnt4_twist_a * x + mnt4_twist_b ≠ 0 :=
  have ra : R1 (NM.of mnt4_coeff_a_nat) mnt4_a := FpRel.cast (by decide +kernel)
  have rb : R1 (NM.of mnt4_coeff_b_nat) mnt4_b := FpRel.cast (by decide +kernel)
  have rta : R2 (mnt4TwistA (NM.of mnt4_coeff_a_nat)) mnt4_twist_a := ⟨o1.mul ra rβ, o1.zero⟩
  have rtb : R2 (mnt4TwistB (NM.of mnt4_coeff_b_nat)) mnt4_twist_b := ⟨o1.zero, o1.mul rb rβ⟩
  rootlessCheck_sound o2 rta rtb (fuel := 600) (N := mnt4_Fq_params.p ^ 2) (Nat.card_eq_fintype_card.trans mnt4_Fq2_card)
    (u := ⟨dec2 NM.of (0, 251018451359114346210249599131409571108529882978542333806525685627903751242034478384388922), dec2 NM.of (372099321720302808072762120938686644537551972389192723288321170706894609697923234704748482, 0),
      dec2 NM.of (0, 61249773743884555501912901412598170690394486051179086572873238756411367681929122382660964)⟩)
    (u' := ⟨dec2 Nat.cast (0, 251018451359114346210249599131409571108529882978542333806525685627903751242034478384388922), dec2 Nat.cast (372099321720302808072762120938686644537551972389192723288321170706894609697923234704748482, 0),
      dec2 Nat.cast (0, 61249773743884555501912901412598170690394486051179086572873238756411367681929122382660964)⟩)
    ⟨dec2_rel _ (by decide +kernel), dec2_rel _ (by decide +kernel), dec2_rel _ (by decide +kernel)⟩ (by decide +kernel) x

/-- The number of points of the curve of `mnt4_G2`. -/
theorem mnt4_G2_card : Nat.card (sw mnt4_twist_a mnt4_twist_b).Point = mnt4_G2_h * mnt4_Fr_params.p :=
  C52_mnt4_G2_generator.2.2.2.elim fun _ hP => card_of_odd (h := mnt4_G2_h) (Nat.card_eq_fintype_card.trans mnt4_Fq2_card) (by decide +kernel) (mnt4_G2_h_dvd) hP.2 C52_mnt4_G2_generator.1 mnt4_G2_rootless (by decide +kernel)

end Libff
