import Verif.Lemmas.PointCount
import Verif.Lemmas.PrimesCof
import Verif.Props.GenAltBn128

/-!
# The number of points of the groups of alt_bn128

The witnesses are points of prime order (or independent pairs of points of prime power order) for every prime dividing
the cofactor. The kernel computes with them.
-/
namespace Libff
set_option synthInstance.maxSize 2000
open alt_bn128_K

theorem alt_bn128_G1_rootless (x : alt_bn128_Fq) : x ^ 3 + 0 * x ^ 2 + 0 * x + alt_bn128_b ≠ 0 :=
  have hb : R1 (NM.of alt_bn128_coeff_b_nat) alt_bn128_b := FpRel.cast (by decide +kernel)
  rootlessCheck_sound o1 o1.zero hb (fuel := 600) (N := alt_bn128_Fq_params.p) (Nat.card_eq_fintype_card.trans (Fp.card (P := alt_bn128_Fq_params)))
    (u := ⟨NM.of 0, NM.of 0, NM.of 21888242871839275222001521246907483764094244074761627882580784643658536691698⟩)
    (u' := ⟨Nat.cast 0, Nat.cast 0, Nat.cast 21888242871839275222001521246907483764094244074761627882580784643658536691698⟩)
    ⟨FpRel.cast (v := 0) (by decide +kernel), FpRel.cast (v := 0) (by decide +kernel),
      FpRel.cast (v := 21888242871839275222001521246907483764094244074761627882580784643658536691698) (by decide +kernel)⟩ (by decide +kernel) x

/-- The number of points of the curve of `alt_bn128_G1`. -/
theorem alt_bn128_G1_card : Nat.card (sw 0 alt_bn128_b).Point = 1 * alt_bn128_Fr_params.p :=
  C52_alt_bn128_G1_generator.2.2.2.2.elim fun _ hP => card_of_odd (h := 1) (Nat.card_eq_fintype_card.trans (Fp.card (P := alt_bn128_Fq_params))) (by decide +kernel) (one_dvd _) hP.2 C52_alt_bn128_G1_generator.1 alt_bn128_G1_rootless (by decide +kernel)

/-- Witnesses for the prime factors of the cofactor. -/
def alt_bn128_G2_tests : List (OrdTest ((Nat × Nat) × (Nat × Nat))) := [
  .one ((6411539875902946929023864618992292742622913483038976913149863355512763349815, 21634496975428279975483896122370236501570314189400858539535318502865441431579), (10518010935002134551272468668467315956966659417729093838674098721404216817657, 4396015927687661484268020884820984042881107121196110314328155230598040533568)) 10069,
  .one ((5036368902799752853630344100058112394698147029980069761770500909447784768571, 20492947164584662560770204309376297859530662251151594389972406154393521983205), (13400596348814332651228781882605204357132300951052130056075768742624833913870, 5986041501339681679821318666506291554273422474779868057536183511766479728227)) 5864401,
  .one ((4649163935230531003156368524366582733235760230009270281455639194140440126124, 157067573318471333433071942245783955475025482148566229460472973130560336894), (19322278860062052560221745603425990320310189054980169623231838393446349510430, 2301091701059729763442423569853227526653573010803585507283713796725887257673)) 1875725156269,
  .one ((15215163373134273772763433684644623396382236608282865971199038700360588384712, 2123723432991812953847990645358493814763491814014963191414417664331342823967), (6260359016476480791894390910871318688700531564506645839320422558365246172475, 10484997799510221140771926450996643875278235682733061733417664030569359012016)) 197620364512881247228717050342013327560683201906968909]

theorem alt_bn128_G2_h_dvd : alt_bn128_G2_h ∣ Nat.card (sw 0 alt_bn128_twist_b).Point :=
  have h := Jac.ordCheck_dvd o2 (W := (Nat × Nat) × (Nat × Nat)) (σ := RingHom.id _) (f := id) (fun h => h) alt_bn128_twist_b_rel o2.one o2.one
    (bnd := fun w => decide ((w.1.1 < alt_bn128_Fq_params.p ∧ w.1.2 < alt_bn128_Fq_params.p) ∧ (w.2.1 < alt_bn128_Fq_params.p ∧ w.2.2 < alt_bn128_Fq_params.p))) (dec := fun w => ⟨dec2 NM.of w.1, dec2 NM.of w.2, 1⟩)
    (fun w hw => by
      have hw := of_decide_eq_true hw
      exact ⟨⟨_, _, 1⟩, dec2_rel _ hw.1, dec2_rel _ hw.2, o2.one⟩)
    alt_bn128_G2_tests (List.forall_mem_cons.2 ⟨prime_10069, List.forall_mem_cons.2 ⟨prime_5864401, List.forall_mem_cons.2 ⟨prime_1875725156269, List.forall_mem_cons.2 ⟨prime_cof5, List.forall_mem_nil _⟩⟩⟩⟩) (by decide +kernel)
  (show alt_bn128_G2_h = (alt_bn128_G2_tests.map OrdTest.factor).prod by decide +kernel) ▸ h

theorem alt_bn128_G2_rootless (x : alt_bn128_Fq2) : x ^ 3 + 0 * x ^ 2 + 0 * x + alt_bn128_twist_b ≠ 0 :=
  rootlessCheck_sound o2 o2.zero alt_bn128_twist_b_rel (fuel := 600) (N := alt_bn128_Fq_params.p ^ 2) (Nat.card_eq_fintype_card.trans alt_bn128_Fq2_card)
    (u := ⟨dec2 NM.of (0, 0), dec2 NM.of (0, 0),
      dec2 NM.of (21888242871839275220042445260109153167277707414472061641714758635765020556618, 21888242871839275222001521246907483764094244074761627882580784643658536691698)⟩)
    (u' := ⟨dec2 Nat.cast (0, 0), dec2 Nat.cast (0, 0),
      dec2 Nat.cast (21888242871839275220042445260109153167277707414472061641714758635765020556618, 21888242871839275222001521246907483764094244074761627882580784643658536691698)⟩)
    ⟨dec2_rel _ (by decide +kernel), dec2_rel _ (by decide +kernel), dec2_rel _ (by decide +kernel)⟩ (by decide +kernel) x

/-- The number of points of the curve of `alt_bn128_G2`. -/
theorem alt_bn128_G2_card : Nat.card (sw 0 alt_bn128_twist_b).Point = alt_bn128_G2_h * alt_bn128_Fr_params.p :=
  C52_alt_bn128_G2_generator.2.2.2.2.elim fun _ hP => card_of_odd (h := alt_bn128_G2_h) (Nat.card_eq_fintype_card.trans alt_bn128_Fq2_card) (by decide +kernel) (alt_bn128_G2_h_dvd) hP.2 C52_alt_bn128_G2_generator.1 alt_bn128_G2_rootless (by decide +kernel)

end Libff
