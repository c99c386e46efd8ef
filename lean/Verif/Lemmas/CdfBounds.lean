import Verif.Props.NormalCdf

/-! # Bounds for the derivative of the approximated normal distribution function -/

set_option linter.unusedSectionVars false
set_option linter.unusedSimpArgs false
set_option linter.unusedVariables false

namespace Dcf

/-- Relative error of the derivative of `normalCdf` at `x` as function of `r = 1 / (1 + 0.2316419 x)`. -/
noncomputable def cdfBracket (r : ℝ) : ℝ :=
  (1 - r) * (0.31938153 - 0.356563782 * r + 1.781477937 * r ^ 2 - 1.821255978 * r ^ 3 + 1.330274429 * r ^ 4) / 0.2316419
  + 0.2316419 * r ^ 2 * (0.31938153 - 0.713127564 * r + 5.344433811 * r ^ 2 - 7.285023912 * r ^ 3 + 6.651372145 * r ^ 4) - 1

private theorem cdfBracket_0 {r : ℝ} (h1 : (104 / 125 : ℝ) ≤ r) (h2 : r ≤ (1 / 1 : ℝ)) : |cdfBracket r| ≤ 0.0000145 := by
  obtain ⟨s, hs, rfl⟩ : ∃ s, 0 ≤ s ∧ r = (104 / 125 : ℝ) + s := ⟨r - (104 / 125 : ℝ), by linarith, by ring⟩
  have hu : 0 ≤ (21 / 125 : ℝ) - s := by linarith
  have e1 : 0.0000145 - cdfBracket ((104 / 125 : ℝ) + s) =
      (103698135849617605236541127 / 147820143036234375000000000 : ℝ) * s ^ 0 * ((21 / 125 : ℝ) - s) ^ 6 +
      (13327020176702275209240397 / 3378746126542500000000000 : ℝ) * s ^ 1 * ((21 / 125 : ℝ) - s) ^ 5 +
      (24821833587762257206903327 / 3027356529382080000000000 : ℝ) * s ^ 2 * ((21 / 125 : ℝ) - s) ^ 4 +
      (21694075034978372922173 / 2421885223505664000000 : ℝ) * s ^ 3 * ((21 / 125 : ℝ) - s) ^ 3 +
      (3503449398336290064721 / 387501635760906240000 : ℝ) * s ^ 4 * ((21 / 125 : ℝ) - s) ^ 2 +
      (10756863423604096871 / 1550006543043624960 : ℝ) * s ^ 5 * ((21 / 125 : ℝ) - s) ^ 1 +
      (12463387625 / 34696101888 : ℝ) * s ^ 6 * ((21 / 125 : ℝ) - s) ^ 0 := by
    unfold cdfBracket; ring
  have e2 : 0.0000145 + cdfBracket ((104 / 125 : ℝ) + s) =
      (260907109270147428431001619 / 443460429108703125000000000 : ℝ) * s ^ 0 * ((21 / 125 : ℝ) - s) ^ 6 +
      (89751344145164151660317221 / 23651222885797500000000000 : ℝ) * s ^ 1 * ((21 / 125 : ℝ) - s) ^ 5 +
      (1607196273071588942528413 / 144159834732480000000000 : ℝ) * s ^ 2 * ((21 / 125 : ℝ) - s) ^ 4 +
      (122351231926314881233481 / 7265655670516992000000 : ℝ) * s ^ 3 * ((21 / 125 : ℝ) - s) ^ 3 +
      (3993888882913709935279 / 387501635760906240000 : ℝ) * s ^ 4 * ((21 / 125 : ℝ) - s) ^ 2 +
      (412959275465301043 / 516668847681208320 : ℝ) * s ^ 5 * ((21 / 125 : ℝ) - s) ^ 1 +
      (2615465602375 / 2810384252928 : ℝ) * s ^ 6 * ((21 / 125 : ℝ) - s) ^ 0 := by
    unfold cdfBracket; ring
  generalize (21 / 125 : ℝ) - s = u at *
  have p1 : 0 ≤ 0.0000145 - cdfBracket ((104 / 125 : ℝ) + s) := by rw [e1]; positivity
  have p2 : 0 ≤ 0.0000145 + cdfBracket ((104 / 125 : ℝ) + s) := by rw [e2]; positivity
  exact abs_le.2 ⟨by linarith, by linarith⟩

private theorem cdfBracket_1 {r : ℝ} (h1 : (319 / 500 : ℝ) ≤ r) (h2 : r ≤ (104 / 125 : ℝ)) : |cdfBracket r| ≤ 0.0000145 := by
  obtain ⟨s, hs, rfl⟩ : ∃ s, 0 ≤ s ∧ r = (319 / 500 : ℝ) + s := ⟨r - (319 / 500 : ℝ), by linarith, by ring⟩
  have hu : 0 ≤ (97 / 500 : ℝ) - s := by linarith
  have e1 : 0.0000145 - cdfBracket ((319 / 500 : ℝ) + s) =
      (1839839129233512397092862602905611 / 3859024357371258502000000000000000 : ℝ) * s ^ 0 * ((97 / 500 : ℝ) - s) ^ 6 +
      (18198424450210498693131061191063 / 8613893654846559156250000000000 : ℝ) * s ^ 1 * ((97 / 500 : ℝ) - s) ^ 5 +
      (7704115920824194011150850805539 / 6891114923877247325000000000000 : ℝ) * s ^ 2 * ((97 / 500 : ℝ) - s) ^ 4 +
      (11862649207994899718784409414481 / 3014862779196295704687500000000 : ℝ) * s ^ 3 * ((97 / 500 : ℝ) - s) ^ 3 +
      (973400018698851357284366247717 / 215347341371163978906250000000 : ℝ) * s ^ 4 * ((97 / 500 : ℝ) - s) ^ 2 +
      (224238534631217755470678916613 / 117768077312355300964355468750 : ℝ) * s ^ 5 * ((97 / 500 : ℝ) - s) ^ 1 +
      (2488755260390822525676987048 / 8412005522311092926025390625 : ℝ) * s ^ 6 * ((97 / 500 : ℝ) - s) ^ 0 := by
    unfold cdfBracket; ring
  have e2 : 0.0000145 + cdfBracket ((319 / 500 : ℝ) + s) =
      (259415589516487602907137397094389 / 3859024357371258502000000000000000 : ℝ) * s ^ 0 * ((97 / 500 : ℝ) - s) ^ 6 +
      (9916594104477001306868938808937 / 8613893654846559156250000000000 : ℝ) * s ^ 1 * ((97 / 500 : ℝ) - s) ^ 5 +
      (48525921188550805988849149194461 / 6891114923877247325000000000000 : ℝ) * s ^ 2 * ((97 / 500 : ℝ) - s) ^ 4 +
      (20938205772473850281215590585519 / 3014862779196295704687500000000 : ℝ) * s ^ 3 * ((97 / 500 : ℝ) - s) ^ 3 +
      (783788640969117392715633752283 / 215347341371163978906250000000 : ℝ) * s ^ 4 * ((97 / 500 : ℝ) - s) ^ 2 +
      (160146484671150408591821083387 / 117768077312355300964355468750 : ℝ) * s ^ 5 * ((97 / 500 : ℝ) - s) ^ 1 +
      (2087256874161179427448012952 / 8412005522311092926025390625 : ℝ) * s ^ 6 * ((97 / 500 : ℝ) - s) ^ 0 := by
    unfold cdfBracket; ring
  generalize (97 / 500 : ℝ) - s = u at *
  have p1 : 0 ≤ 0.0000145 - cdfBracket ((319 / 500 : ℝ) + s) := by rw [e1]; positivity
  have p2 : 0 ≤ 0.0000145 + cdfBracket ((319 / 500 : ℝ) + s) := by rw [e2]; positivity
  exact abs_le.2 ⟨by linarith, by linarith⟩

private theorem cdfBracket_2 {r : ℝ} (h1 : (59 / 100 : ℝ) ≤ r) (h2 : r ≤ (319 / 500 : ℝ)) : |cdfBracket r| ≤ 0.0000145 := by
  obtain ⟨s, hs, rfl⟩ : ∃ s, 0 ≤ s ∧ r = (59 / 100 : ℝ) + s := ⟨r - (59 / 100 : ℝ), by linarith, by ring⟩
  have hu : 0 ≤ (6 / 125 : ℝ) - s := by linarith
  have e1 : 0.0000145 - cdfBracket ((59 / 100 : ℝ) + s) =
      (72049694174969461987248370531 / 56662344264056832000000000 : ℝ) * s ^ 0 * ((6 / 125 : ℝ) - s) ^ 6 +
      (76603216837250417996108020673 / 6745517174292480000000000 : ℝ) * s ^ 1 * ((6 / 125 : ℝ) - s) ^ 5 +
      (3129391570348678413267671644891 / 94437240440094720000000000 : ℝ) * s ^ 2 * ((6 / 125 : ℝ) - s) ^ 4 +
      (16449542074709305817036650911071 / 354139651650355200000000000 : ℝ) * s ^ 3 * ((6 / 125 : ℝ) - s) ^ 3 +
      (81669688422119982011242005503251 / 2360931011002368000000000000 : ℝ) * s ^ 4 * ((6 / 125 : ℝ) - s) ^ 2 +
      (391771047469026363691021676901431 / 29511637637529600000000000000 : ℝ) * s ^ 5 * ((6 / 125 : ℝ) - s) ^ 1 +
      (1839839129233512397092862602905611 / 885349129125888000000000000000 : ℝ) * s ^ 6 * ((6 / 125 : ℝ) - s) ^ 0 := by
    unfold cdfBracket; ring
  have e2 : 0.0000145 + cdfBracket ((59 / 100 : ℝ) + s) =
      (62302607825030538012751629469 / 56662344264056832000000000 : ℝ) * s ^ 0 * ((6 / 125 : ℝ) - s) ^ 6 +
      (19362713162749582003891979327 / 6745517174292480000000000 : ℝ) * s ^ 1 * ((6 / 125 : ℝ) - s) ^ 5 +
      (229415979651321586732328355109 / 94437240440094720000000000 : ℝ) * s ^ 2 * ((6 / 125 : ℝ) - s) ^ 4 +
      (344495675290694182963349088929 / 354139651650355200000000000 : ℝ) * s ^ 3 * ((6 / 125 : ℝ) - s) ^ 3 +
      (2300500327880017988757994496749 / 2360931011002368000000000000 : ℝ) * s ^ 4 * ((6 / 125 : ℝ) - s) ^ 2 +
      (28079896280973636308978323098569 / 29511637637529600000000000000 : ℝ) * s ^ 5 * ((6 / 125 : ℝ) - s) ^ 1 +
      (259415589516487602907137397094389 / 885349129125888000000000000000 : ℝ) * s ^ 6 * ((6 / 125 : ℝ) - s) ^ 0 := by
    unfold cdfBracket; ring
  generalize (6 / 125 : ℝ) - s = u at *
  have p1 : 0 ≤ 0.0000145 - cdfBracket ((59 / 100 : ℝ) + s) := by rw [e1]; positivity
  have p2 : 0 ≤ 0.0000145 + cdfBracket ((59 / 100 : ℝ) + s) := by rw [e2]; positivity
  exact abs_le.2 ⟨by linarith, by linarith⟩

private theorem cdfBracket_3 {r : ℝ} (h1 : (11 / 20 : ℝ) ≤ r) (h2 : r ≤ (59 / 100 : ℝ)) : |cdfBracket r| ≤ 0.0001238 := by
  obtain ⟨s, hs, rfl⟩ : ∃ s, 0 ≤ s ∧ r = (11 / 20 : ℝ) + s := ⟨r - (11 / 20 : ℝ), by linarith, by ring⟩
  have hu : 0 ≤ (1 / 25 : ℝ) - s := by linarith
  have e1 : 0.0001238 - cdfBracket ((11 / 20 : ℝ) + s) =
      (9188624391508349501667139 / 1214470684672000000000 : ℝ) * s ^ 0 * ((1 / 25 : ℝ) - s) ^ 6 +
      (263623510017927304392391897 / 3036176711680000000000 : ℝ) * s ^ 1 * ((1 / 25 : ℝ) - s) ^ 5 +
      (1800420293257519885815957993 / 6072353423360000000000 : ℝ) * s ^ 2 * ((1 / 25 : ℝ) - s) ^ 4 +
      (3609092388319560133248652371 / 7590441779200000000000 : ℝ) * s ^ 3 * ((1 / 25 : ℝ) - s) ^ 3 +
      (12186533423322279294882726197 / 30361767116800000000000 : ℝ) * s ^ 4 * ((1 / 25 : ℝ) - s) ^ 2 +
      (329453927846391115588697593113 / 1897610444800000000000000 : ℝ) * s ^ 5 * ((1 / 25 : ℝ) - s) ^ 1 +
      (578418887574969461987248370531 / 18976104448000000000000000 : ℝ) * s ^ 6 * ((1 / 25 : ℝ) - s) ^ 0 := by
    unfold cdfBracket; ring
  have e2 : 0.0001238 + cdfBracket ((11 / 20 : ℝ) + s) =
      (64225179691691650498332861 / 1214470684672000000000 : ℝ) * s ^ 0 * ((1 / 25 : ℝ) - s) ^ 6 +
      (837583551230072695607608103 / 3036176711680000000000 : ℝ) * s ^ 1 * ((1 / 25 : ℝ) - s) ^ 5 +
      (3705615012982480114184042007 / 6072353423360000000000 : ℝ) * s ^ 2 * ((1 / 25 : ℝ) - s) ^ 4 +
      (5567633122080439866751347629 / 7590441779200000000000 : ℝ) * s ^ 3 * ((1 / 25 : ℝ) - s) ^ 3 +
      (15343643107877720705117273803 / 30361767116800000000000 : ℝ) * s ^ 4 * ((1 / 25 : ℝ) - s) ^ 2 +
      (358800485433608884411302406887 / 1897610444800000000000000 : ℝ) * s ^ 5 * ((1 / 25 : ℝ) - s) ^ 1 +
      (568671801225030538012751629469 / 18976104448000000000000000 : ℝ) * s ^ 6 * ((1 / 25 : ℝ) - s) ^ 0 := by
    unfold cdfBracket; ring
  generalize (1 / 25 : ℝ) - s = u at *
  have p1 : 0 ≤ 0.0001238 - cdfBracket ((11 / 20 : ℝ) + s) := by rw [e1]; positivity
  have p2 : 0 ≤ 0.0001238 + cdfBracket ((11 / 20 : ℝ) + s) := by rw [e2]; positivity
  exact abs_le.2 ⟨by linarith, by linarith⟩

private theorem cdfBracket_4 {r : ℝ} (h1 : (13 / 25 : ℝ) ≤ r) (h2 : r ≤ (11 / 20 : ℝ)) : |cdfBracket r| ≤ 0.0003574 := by
  obtain ⟨s, hs, rfl⟩ : ∃ s, 0 ≤ s ∧ r = (13 / 25 : ℝ) + s := ⟨r - (13 / 25 : ℝ), by linarith, by ring⟩
  have hu : 0 ≤ (3 / 100 : ℝ) - s := by linarith
  have e1 : 0.0003574 - cdfBracket ((13 / 25 : ℝ) + s) =
      (13066477997381487875336089 / 137424271728515625000 : ℝ) * s ^ 0 * ((3 / 100 : ℝ) - s) ^ 6 +
      (104473983572343249560749447 / 109939417382812500000 : ℝ) * s ^ 1 * ((3 / 100 : ℝ) - s) ^ 5 +
      (22465126824016016085861743 / 7036122712500000000 : ℝ) * s ^ 2 * ((3 / 100 : ℝ) - s) ^ 4 +
      (36534425394134788547872031 / 7036122712500000000 : ℝ) * s ^ 3 * ((3 / 100 : ℝ) - s) ^ 3 +
      (50603110453506594706098997 / 11257796340000000000 : ℝ) * s ^ 4 * ((3 / 100 : ℝ) - s) ^ 2 +
      (90202123024304058010372373 / 45031185360000000000 : ℝ) * s ^ 5 * ((3 / 100 : ℝ) - s) ^ 1 +
      (8716822847412038833518571 / 24016632192000000000 : ℝ) * s ^ 6 * ((3 / 100 : ℝ) - s) ^ 0 := by
    unfold cdfBracket; ring
  have e2 : 0.0003574 + cdfBracket ((13 / 25 : ℝ) + s) =
      (365042827043011786373991733 / 412272815185546875000 : ℝ) * s ^ 0 * ((3 / 100 : ℝ) - s) ^ 6 +
      (180771211361302250146416851 / 36646472460937500000 : ℝ) * s ^ 1 * ((3 / 100 : ℝ) - s) ^ 5 +
      (81020892000983983914138257 / 7036122712500000000 : ℝ) * s ^ 2 * ((3 / 100 : ℝ) - s) ^ 4 +
      (304340799117595634356383907 / 21108368137500000000 : ℝ) * s ^ 3 * ((3 / 100 : ℝ) - s) ^ 3 +
      (38324839888831135097967001 / 3752598780000000000 : ℝ) * s ^ 4 * ((3 / 100 : ℝ) - s) ^ 2 +
      (174722085167695941989627627 / 45031185360000000000 : ℝ) * s ^ 5 * ((3 / 100 : ℝ) - s) ^ 1 +
      (133487960926891650498332861 / 216149689728000000000 : ℝ) * s ^ 6 * ((3 / 100 : ℝ) - s) ^ 0 := by
    unfold cdfBracket; ring
  generalize (3 / 100 : ℝ) - s = u at *
  have p1 : 0 ≤ 0.0003574 - cdfBracket ((13 / 25 : ℝ) + s) := by rw [e1]; positivity
  have p2 : 0 ≤ 0.0003574 + cdfBracket ((13 / 25 : ℝ) + s) := by rw [e2]; positivity
  exact abs_le.2 ⟨by linarith, by linarith⟩

private theorem cdfBracket_5 {r : ℝ} (h1 : (49 / 100 : ℝ) ≤ r) (h2 : r ≤ (13 / 25 : ℝ)) : |cdfBracket r| ≤ 0.0008123 := by
  obtain ⟨s, hs, rfl⟩ : ∃ s, 0 ≤ s ∧ r = (49 / 100 : ℝ) + s := ⟨r - (49 / 100 : ℝ), by linarith, by ring⟩
  have hu : 0 ≤ (3 / 100 : ℝ) - s := by linarith
  have e1 : 0.0008123 - cdfBracket ((49 / 100 : ℝ) + s) =
      (616363842562166919669562606891 / 3377338902000000000000000 : ℝ) * s ^ 0 * ((3 / 100 : ℝ) - s) ^ 6 +
      (85133550284503803552699559229 / 46907484750000000000000 : ℝ) * s ^ 1 * ((3 / 100 : ℝ) - s) ^ 5 +
      (6156601268599080246550601731 / 1005160387500000000000 : ℝ) * s ^ 2 * ((3 / 100 : ℝ) - s) ^ 4 +
      (26469510974628913726846213663 / 2638546017187500000000 : ℝ) * s ^ 3 * ((3 / 100 : ℝ) - s) ^ 3 +
      (2566695226642594463333940097 / 293171779687500000000 : ℝ) * s ^ 4 * ((3 / 100 : ℝ) - s) ^ 2 +
      (2162905016442282670212385037 / 549697086914062500000 : ℝ) * s ^ 5 * ((3 / 100 : ℝ) - s) ^ 1 +
      (296459932795855401126008267 / 412272815185546875000 : ℝ) * s ^ 6 * ((3 / 100 : ℝ) - s) ^ 0 := by
    unfold cdfBracket; ring
  have e2 : 0.0008123 + cdfBracket ((49 / 100 : ℝ) + s) =
      (2303381590745944360110145797703 / 1125779634000000000000000 : ℝ) * s ^ 0 * ((3 / 100 : ℝ) - s) ^ 6 +
      (1626226502846488589341901322313 / 140722454250000000000000 : ℝ) * s ^ 1 * ((3 / 100 : ℝ) - s) ^ 5 +
      (27443883618900919753449398269 / 1005160387500000000000 : ℝ) * s ^ 2 * ((3 / 100 : ℝ) - s) ^ 4 +
      (30377395377207028757717928779 / 879515339062500000000 : ℝ) * s ^ 3 * ((3 / 100 : ℝ) - s) ^ 3 +
      (21700338596634716609998179709 / 879515339062500000000 : ℝ) * s ^ 4 * ((3 / 100 : ℝ) - s) ^ 2 +
      (5187201052698342329787614963 / 549697086914062500000 : ℝ) * s ^ 5 * ((3 / 100 : ℝ) - s) ^ 1 +
      (69144813982969191541554637 / 45808090576171875000 : ℝ) * s ^ 6 * ((3 / 100 : ℝ) - s) ^ 0 := by
    unfold cdfBracket; ring
  generalize (3 / 100 : ℝ) - s = u at *
  have p1 : 0 ≤ 0.0008123 - cdfBracket ((49 / 100 : ℝ) + s) := by rw [e1]; positivity
  have p2 : 0 ≤ 0.0008123 + cdfBracket ((49 / 100 : ℝ) + s) := by rw [e2]; positivity
  exact abs_le.2 ⟨by linarith, by linarith⟩

private theorem cdfBracket_6 {r : ℝ} (h1 : (9 / 20 : ℝ) ≤ r) (h2 : r ≤ (49 / 100 : ℝ)) : |cdfBracket r| ≤ 0.0018632 := by
  obtain ⟨s, hs, rfl⟩ : ∃ s, 0 ≤ s ∧ r = (9 / 20 : ℝ) + s := ⟨r - (9 / 20 : ℝ), by linarith, by ring⟩
  have hu : 0 ≤ (1 / 25 : ℝ) - s := by linarith
  have e1 : 0.0018632 - cdfBracket ((9 / 20 : ℝ) + s) =
      (44344052350598371678407963 / 1214470684672000000000 : ℝ) * s ^ 0 * ((1 / 25 : ℝ) - s) ^ 6 +
      (1728794163208483750223828793 / 3036176711680000000000 : ℝ) * s ^ 1 * ((1 / 25 : ℝ) - s) ^ 5 +
      (13260964445923739352417258081 / 6072353423360000000000 : ℝ) * s ^ 2 * ((1 / 25 : ℝ) - s) ^ 4 +
      (28774910631859425371862009411 / 7590441779200000000000 : ℝ) * s ^ 3 * ((1 / 25 : ℝ) - s) ^ 3 +
      (74047974340607098438155848647 / 21686976512000000000000 : ℝ) * s ^ 4 * ((1 / 25 : ℝ) - s) ^ 2 +
      (2966816969375797173431471881049 / 1897610444800000000000000 : ℝ) * s ^ 5 * ((1 / 25 : ℝ) - s) ^ 1 +
      (5485013296762166919669562606891 / 18976104448000000000000000 : ℝ) * s ^ 6 * ((1 / 25 : ℝ) - s) ^ 0 := by
    unfold cdfBracket; ring
  have e2 : 0.0018632 + cdfBracket ((9 / 20 : ℝ) + s) =
      (1060539629134201628321592037 / 1214470684672000000000 : ℝ) * s ^ 0 * ((1 / 25 : ℝ) - s) ^ 6 +
      (14844461059063516249776171207 / 3036176711680000000000 : ℝ) * s ^ 1 * ((1 / 25 : ℝ) - s) ^ 5 +
      (69605311665436260647582741919 / 6072353423360000000000 : ℝ) * s ^ 2 * ((1 / 25 : ℝ) - s) ^ 4 +
      (109335549553740574628137990589 / 7590441779200000000000 : ℝ) * s ^ 3 * ((1 / 25 : ℝ) - s) ^ 3 +
      (221903011771392901561844151353 / 21686976512000000000000 : ℝ) * s ^ 4 * ((1 / 25 : ℝ) - s) ^ 2 +
      (7391467544544202826568528118951 / 1897610444800000000000000 : ℝ) * s ^ 5 * ((1 / 25 : ℝ) - s) ^ 1 +
      (11778794226437833080330437393109 / 18976104448000000000000000 : ℝ) * s ^ 6 * ((1 / 25 : ℝ) - s) ^ 0 := by
    unfold cdfBracket; ring
  generalize (1 / 25 : ℝ) - s = u at *
  have p1 : 0 ≤ 0.0018632 - cdfBracket ((9 / 20 : ℝ) + s) := by rw [e1]; positivity
  have p2 : 0 ≤ 0.0018632 + cdfBracket ((9 / 20 : ℝ) + s) := by rw [e2]; positivity
  exact abs_le.2 ⟨by linarith, by linarith⟩

private theorem cdfBracket_7 {r : ℝ} (h1 : (39 / 100 : ℝ) ≤ r) (h2 : r ≤ (9 / 20 : ℝ)) : |cdfBracket r| ≤ 0.0057069 := by
  obtain ⟨s, hs, rfl⟩ : ∃ s, 0 ≤ s ∧ r = (39 / 100 : ℝ) + s := ⟨r - (39 / 100 : ℝ), by linarith, by ring⟩
  have hu : 0 ≤ (3 / 50 : ℝ) - s := by linarith
  have e1 : 0.0057069 - cdfBracket ((39 / 100 : ℝ) + s) =
      (311161212511889837833444550893 / 30878527104000000000000000 : ℝ) * s ^ 0 * ((3 / 50 : ℝ) - s) ^ 6 +
      (1245148521545634945731109113333 / 7204989657600000000000000 : ℝ) * s ^ 1 * ((3 / 50 : ℝ) - s) ^ 5 +
      (384846996193913460210437148763 / 576399172608000000000000 : ℝ) * s ^ 2 * ((3 / 50 : ℝ) - s) ^ 4 +
      (99730562269153674382381781141 / 86459875891200000000000 : ℝ) * s ^ 3 * ((3 / 50 : ℝ) - s) ^ 3 +
      (23756137547077753211266327867 / 23055966904320000000000 : ℝ) * s ^ 4 * ((3 / 50 : ℝ) - s) ^ 2 +
      (5388220187370237770868185141 / 11527983452160000000000 : ℝ) * s ^ 5 * ((3 / 50 : ℝ) - s) ^ 1 +
      (1184007375268998371678407963 / 13833580142592000000000 : ℝ) * s ^ 6 * ((3 / 50 : ℝ) - s) ^ 0 := by
    unfold cdfBracket; ring
  have e2 : 0.0057069 + cdfBracket ((39 / 100 : ℝ) + s) =
      (7242879696688110162166555449107 / 30878527104000000000000000 : ℝ) * s ^ 0 * ((3 / 50 : ℝ) - s) ^ 6 +
      (9330508751334365054268890886667 / 7204989657600000000000000 : ℝ) * s ^ 1 * ((3 / 50 : ℝ) - s) ^ 5 +
      (1730284458382086539789562851237 / 576399172608000000000000 : ℝ) * s ^ 2 * ((3 / 50 : ℝ) - s) ^ 4 +
      (323295728646046325617618218859 / 86459875891200000000000 : ℝ) * s ^ 3 * ((3 / 50 : ℝ) - s) ^ 3 +
      (60849120635962246788733672133 / 23055966904320000000000 : ℝ) * s ^ 4 * ((3 / 50 : ℝ) - s) ^ 2 +
      (11532831449237762229131814859 / 11527983452160000000000 : ℝ) * s ^ 5 * ((3 / 50 : ℝ) - s) ^ 1 +
      (2200202952052601628321592037 / 13833580142592000000000 : ℝ) * s ^ 6 * ((3 / 50 : ℝ) - s) ^ 0 := by
    unfold cdfBracket; ring
  generalize (3 / 50 : ℝ) - s = u at *
  have p1 : 0 ≤ 0.0057069 - cdfBracket ((39 / 100 : ℝ) + s) := by rw [e1]; positivity
  have p2 : 0 ≤ 0.0057069 + cdfBracket ((39 / 100 : ℝ) + s) := by rw [e2]; positivity
  exact abs_le.2 ⟨by linarith, by linarith⟩

private theorem cdfBracket_8 {r : ℝ} (h1 : (27 / 100 : ℝ) ≤ r) (h2 : r ≤ (39 / 100 : ℝ)) : |cdfBracket r| ≤ 0.0320113 := by
  obtain ⟨s, hs, rfl⟩ : ∃ s, 0 ≤ s ∧ r = (27 / 100 : ℝ) + s := ⟨r - (27 / 100 : ℝ), by linarith, by ring⟩
  have hu : 0 ≤ (3 / 25 : ℝ) - s := by linarith
  have e1 : 0.0320113 - cdfBracket ((27 / 100 : ℝ) + s) =
      (15857385975054802111665759026339 / 13833580142592000000000000000 : ℝ) * s ^ 0 * ((3 / 25 : ℝ) - s) ^ 6 +
      (48014640446575019814270651931343 / 2305596690432000000000000000 : ℝ) * s ^ 1 * ((3 / 25 : ℝ) - s) ^ 5 +
      (72500435800221921322407726254891 / 922238676172800000000000000 : ℝ) * s ^ 2 * ((3 / 25 : ℝ) - s) ^ 4 +
      (91115126539994183810133212264567 / 691679007129600000000000000 : ℝ) * s ^ 3 * ((3 / 25 : ℝ) - s) ^ 3 +
      (105242968602102309060684174782579 / 922238676172800000000000000 : ℝ) * s ^ 4 * ((3 / 25 : ℝ) - s) ^ 2 +
      (115946924134493337137191244435423 / 2305596690432000000000000000 : ℝ) * s ^ 5 * ((3 / 25 : ℝ) - s) ^ 1 +
      (17720307482111889837833444550893 / 1976225734656000000000000000 : ℝ) * s ^ 6 * ((3 / 25 : ℝ) - s) ^ 0 := by
    unfold cdfBracket; ring
  have e2 : 0.0320113 + cdfBracket ((27 / 100 : ℝ) + s) =
      (93582982721248399296111413657887 / 4611193380864000000000000000 : ℝ) * s ^ 0 * ((3 / 25 : ℝ) - s) ^ 6 +
      (82863897897408326728576449356219 / 768532230144000000000000000 : ℝ) * s ^ 1 * ((3 / 25 : ℝ) - s) ^ 5 +
      (2766739485661457761451756465989 / 11385662668800000000000000 : ℝ) * s ^ 2 * ((3 / 25 : ℝ) - s) ^ 4 +
      (68497069199601938729955595911811 / 230559669043200000000000000 : ℝ) * s ^ 3 * ((3 / 25 : ℝ) - s) ^ 3 +
      (63787788512232563646438608405807 / 307412892057600000000000000 : ℝ) * s ^ 4 * ((3 / 25 : ℝ) - s) ^ 2 +
      (20073267778256295873645417284953 / 256177410048000000000000000 : ℝ) * s ^ 5 * ((3 / 25 : ℝ) - s) ^ 1 +
      (8217341988762703387388851816369 / 658741911552000000000000000 : ℝ) * s ^ 6 * ((3 / 25 : ℝ) - s) ^ 0 := by
    unfold cdfBracket; ring
  generalize (3 / 25 : ℝ) - s = u at *
  have p1 : 0 ≤ 0.0320113 - cdfBracket ((27 / 100 : ℝ) + s) := by rw [e1]; positivity
  have p2 : 0 ≤ 0.0320113 + cdfBracket ((27 / 100 : ℝ) + s) := by rw [e2]; positivity
  exact abs_le.2 ⟨by linarith, by linarith⟩

private theorem cdfBracket_9 {r : ℝ} (h1 : (0 / 1 : ℝ) ≤ r) (h2 : r ≤ (27 / 100 : ℝ)) : |cdfBracket r| ≤ 1 := by
  obtain ⟨s, hs, rfl⟩ : ∃ s, 0 ≤ s ∧ r = (0 / 1 : ℝ) + s := ⟨r - (0 / 1 : ℝ), by linarith, by ring⟩
  have hu : 0 ≤ (27 / 100 : ℝ) - s := by linarith
  have e1 : 1 - cdfBracket ((0 / 1 : ℝ) + s) =
      (1439022700000000000 / 897428181708891 : ℝ) * s ^ 0 * ((27 / 100 : ℝ) - s) ^ 6 +
      (3486396180800000000 / 299142727236297 : ℝ) * s ^ 1 * ((27 / 100 : ℝ) - s) ^ 5 +
      (97131588867088217942211581 / 2991427272362970000000 : ℝ) * s ^ 2 * ((27 / 100 : ℝ) - s) ^ 4 +
      (14808261795886008609749530319 / 320510064896032500000000 : ℝ) * s ^ 3 * ((27 / 100 : ℝ) - s) ^ 3 +
      (10792119529998950398038626023463 / 299142727236297000000000000 : ℝ) * s ^ 4 * ((27 / 100 : ℝ) - s) ^ 2 +
      (1976802855511042103696787834817 / 133545860373346875000000000 : ℝ) * s ^ 5 * ((27 / 100 : ℝ) - s) ^ 1 +
      (4500392218905654802111665759026339 / 1794856363417782000000000000000 : ℝ) * s ^ 6 * ((27 / 100 : ℝ) - s) ^ 0 := by
    unfold cdfBracket; ring
  have e2 : 1 + cdfBracket ((0 / 1 : ℝ) + s) =
      (1064605100000000000 / 299142727236297 : ℝ) * s ^ 0 * ((27 / 100 : ℝ) - s) ^ 6 +
      (1926426606400000000 / 99714242412099 : ℝ) * s ^ 1 * ((27 / 100 : ℝ) - s) ^ 5 +
      (44836770377637260685929473 / 997142424120990000000 : ℝ) * s ^ 2 * ((27 / 100 : ℝ) - s) ^ 4 +
      (6094479401371330463416823227 / 106836688298677500000000 : ℝ) * s ^ 3 * ((27 / 100 : ℝ) - s) ^ 3 +
      (4124023490000349867320457992179 / 99714242412099000000000000 : ℝ) * s ^ 4 * ((27 / 100 : ℝ) - s) ^ 2 +
      (719886548162985965434404055061 / 44515286791115625000000000 : ℝ) * s ^ 5 * ((27 / 100 : ℝ) - s) ^ 1 +
      (1588427927031448399296111413657887 / 598285454472594000000000000000 : ℝ) * s ^ 6 * ((27 / 100 : ℝ) - s) ^ 0 := by
    unfold cdfBracket; ring
  generalize (27 / 100 : ℝ) - s = u at *
  have p1 : 0 ≤ 1 - cdfBracket ((0 / 1 : ℝ) + s) := by rw [e1]; positivity
  have p2 : 0 ≤ 1 + cdfBracket ((0 / 1 : ℝ) + s) := by rw [e2]; positivity
  exact abs_le.2 ⟨by linarith, by linarith⟩
theorem pow_seven_le {x y : ℝ} (h0 : 0 ≤ y) (h : y ≤ x) : y ^ 7 ≤ x ^ 7 := pow_le_pow_left₀ h0 h 7

/-- The bracket is small near the origin and grows slower than a power. -/
theorem cdfBracket_bound {x : ℝ} (hx : 0 ≤ x) :
    |cdfBracket (1 / (1 + 0.2316419 * x))| ≤ 0.0000145 + 0.00000006 * x ^ 7 := by
  have hp : 0 < 1 + 0.2316419 * x := by positivity
  have hr : ∀ c : ℝ, 0 < c → (1 / (1 + 0.2316419 * x) ≤ c ↔ (1 / c - 1) / 0.2316419 ≤ x) := fun c hc => by
    rw [div_le_iff₀ hp, div_le_iff₀ (by norm_num)]
    constructor
    · intro h
      have : 1 / c * 1 ≤ 1 / c * (c * (1 + 0.2316419 * x)) := by gcongr
      rw [← mul_assoc, one_div_mul_cancel hc.ne'] at this
      linarith
    · intro h
      have : c * (1 / c) ≤ c * (1 + 0.2316419 * x) := by gcongr; linarith
      rwa [mul_one_div_cancel hc.ne'] at this
  have hpos : 0 < 1 / (1 + 0.2316419 * x) := by positivity
  have hone : 1 / (1 + 0.2316419 * x) ≤ 1 := by rw [div_le_one hp]; linarith
  have h7 : 0 ≤ x ^ 7 := by positivity
  have low : ∀ c M y : ℝ, 0 < c → 0 ≤ y → y ≤ (1 / c - 1) / 0.2316419 → M ≤ 0.0000145 + 0.00000006 * y ^ 7 →
      1 / (1 + 0.2316419 * x) ≤ c → M ≤ 0.0000145 + 0.00000006 * x ^ 7 := fun c M y hc h0 hy hM h => by
    have := pow_seven_le h0 (hy.trans ((hr c hc).1 h))
    linarith
  generalize 1 / (1 + 0.2316419 * x) = r at *
  rcases le_total (832 / 1000) r with h | h
  · exact (cdfBracket_0 (by linarith) (by linarith)).trans (by linarith)
  rcases le_total (638 / 1000) r with h' | h'
  · exact (cdfBracket_1 (by linarith) (by linarith)).trans (by linarith)
  rcases le_total (59 / 100) r with h2 | h2
  · exact (cdfBracket_2 (by linarith) (by linarith)).trans (by linarith)
  rcases le_total (55 / 100) r with h3 | h3
  · exact (cdfBracket_3 (by linarith) (by linarith)).trans
      (low (59 / 100) _ 2.9999 (by norm_num) (by norm_num) (by norm_num) (by norm_num) (by linarith))
  rcases le_total (52 / 100) r with h4 | h4
  · exact (cdfBracket_4 (by linarith) (by linarith)).trans
      (low (55 / 100) _ 3.53205 (by norm_num) (by norm_num) (by norm_num) (by norm_num) (by linarith))
  rcases le_total (49 / 100) r with h5 | h5
  · exact (cdfBracket_5 (by linarith) (by linarith)).trans
      (low (52 / 100) _ 3.98493 (by norm_num) (by norm_num) (by norm_num) (by norm_num) (by linarith))
  rcases le_total (45 / 100) r with h6 | h6
  · exact (cdfBracket_6 (by linarith) (by linarith)).trans
      (low (49 / 100) _ 4.4932 (by norm_num) (by norm_num) (by norm_num) (by norm_num) (by linarith))
  rcases le_total (39 / 100) r with h8 | h8
  · exact (cdfBracket_7 (by linarith) (by linarith)).trans
      (low (45 / 100) _ 5.2763 (by norm_num) (by norm_num) (by norm_num) (by norm_num) (by linarith))
  rcases le_total (27 / 100) r with h9 | h9
  · exact (cdfBracket_8 (by linarith) (by linarith)).trans
      (low (39 / 100) _ 6.7522 (by norm_num) (by norm_num) (by norm_num) (by norm_num) (by linarith))
  · exact (cdfBracket_9 (by linarith) (by linarith)).trans
      (low (27 / 100) _ 11.67 (by norm_num) (by norm_num) (by norm_num) (by norm_num) (by linarith))

end Dcf
