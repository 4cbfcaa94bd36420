import Verif.Props.Gamut

/-!
# The matrices of the derived spaces and of the adaptations between their whites, in exact rationals (for C126)
-/

namespace CS
open Spec

theorem exact_inv {B X A : Matrix33 ℝ} (h : IsInverse B X) (hA : B * A = Matrix33.identity) : X = A := by
  have e := ((isInverse_iff B X).1 h).2
  calc X = X * (B * A) := by rw [hA, m33_mul_one]
    _ = A := by rw [← m33_mul_assoc, e, m33_one_mul]

theorem identity_eq : (Matrix33.identity : Matrix33 ℝ) = ⟨1, 0, 0, 0, 1, 0, 0, 0, 1⟩ := by
  ext <;> simp [Matrix33.identity, Flt.one, Flt.zero]

namespace Exact

/-- the inverse of the CAT02 matrix -/
noncomputable def cone : Matrix33 ℝ :=
  ⟨83461927 / 76142791, (-21233864) / 76142791, 13914728 / 76142791,
    34596927 / 76142791, 36056136 / 76142791, 5489728 / 76142791,
    (-733073) / 76142791, (-433864) / 76142791, 77309728 / 76142791⟩

/-- RGB to XYZ -/
noncomputable def srgbA : Matrix33 ℝ :=
  ⟨506752 / 1228815, 87881 / 245763, 12673 / 70218,
    87098 / 409605, 175762 / 245763, 12673 / 175545,
    7918 / 409605, 87881 / 737289, 1001167 / 1053270⟩

/-- XYZ to RGB -/
noncomputable def srgbB : Matrix33 ℝ :=
  ⟨12831 / 3959, (-329) / 214, (-1974) / 3959,
    (-851781) / 878810, 1648619 / 878810, 36519 / 878810,
    705 / 12673, (-2585) / 12673, 705 / 667⟩

/-- RGB to XYZ -/
noncomputable def p3A : Matrix33 ℝ :=
  ⟨79169 / 177840, 591427 / 2134080, 24511 / 142272,
    4657 / 22230, 256657 / 355680, 24511 / 355680,
    0, 11159 / 237120, 1936369 / 2134080⟩

/-- XYZ to RGB -/
noncomputable def p3B : Matrix33 ℝ :=
  ⟨317304 / 116425, (-118521) / 116425, (-51246) / 116425,
    (-221832) / 278975, 471393 / 278975, 6318 / 278975,
    25272 / 612775, (-53703) / 612775, 674622 / 612775⟩

/-- RGB to XYZ -/
noncomputable def p3dA : Matrix33 ℝ :=
  ⟨608311 / 1250200, 189793 / 714400, 198249 / 1000160,
    35783 / 156275, 247089 / 357200, 198249 / 2500400,
    0, 32229 / 714400, 5220557 / 5000800⟩

/-- XYZ to RGB -/
noncomputable def p3dB : Matrix33 ℝ :=
  ⟨446124 / 178915, (-333277) / 357830, (-72051) / 178915,
    (-14852) / 17905, 63121 / 35810, 423 / 17905,
    11844 / 330415, (-50337) / 660830, 316169 / 330415⟩

/-- RGB to XYZ -/
noncomputable def btA : Matrix33 ℝ :=
  ⟨63426534 / 99577255, 20160776 / 139408157, 47086771 / 278816314,
    26158966 / 99577255, 472592308 / 697040785, 8267143 / 139408157,
    0, 19567812 / 697040785, 295819943 / 278816314⟩

/-- XYZ to RGB -/
noncomputable def btB : Matrix33 ℝ :=
  ⟨30757411 / 17917100, (-6372589) / 17917100, (-4539589) / 17917100,
    (-19765991) / 29648200, 47925759 / 29648200, 467509 / 29648200,
    792561 / 44930125, (-1921689) / 44930125, 42328811 / 44930125⟩

/-- RGB to XYZ -/
noncomputable def cgA : Matrix33 ℝ :=
  ⟨3359814999 / 5071769633, 679638465 / 5071769633, 792147968 / 5071769633,
    1380681339 / 5071769633, 3418787430 / 5071769633, 272300864 / 5071769633,
    (-28273338) / 5071769633, 20595105 / 5071769633, 5124207168 / 5071769633⟩

/-- XYZ to RGB -/
noncomputable def cgB : Matrix33 ℝ :=
  ⟨1159930217 / 706833450, (-229581833) / 706833450, (-167112883) / 706833450,
    (-683410313) / 1029755250, 1663396187 / 1029755250, 17254937 / 1029755250,
    43525663 / 3713193600, (-30761737) / 3713193600, 3670101463 / 3713193600⟩

/-- adaptation -/
noncomputable def kD65DCI : Matrix33 ℝ :=
  ⟨3938016638908112214309165934911707 / 3973437751569271210131627044931750, (-18120391013002587754400417326424) / 662239625261545201688604507488625, (-73093984349381905236908093823163) / 3973437751569271210131627044931750,
    (-1405584744342938108157440193892) / 73582180584616133520956056387625, 226450135051480678203186675589942 / 220746541753848400562868169162875, (-1557083857808844835060826035766) / 220746541753848400562868169162875,
    (-14547983866674802580079244894) / 180610806889512327733255774769625, (-39330762275098748313822737278) / 20067867432168036414806197196625, 158619356588506660443139741107896 / 180610806889512327733255774769625⟩

/-- adaptation -/
noncomputable def kD65ACES : Matrix33 ℝ :=
  ⟨386825274293621905816417034114229919 / 382253767969343535477249716313989750, 1530537714357988397411345443255976 / 191126883984671767738624858156994875, (-6031726567637246141948570107606871) / 382253767969343535477249716313989750,
    1103008184718212447719779086312772 / 191126883984671767738624858156994875, 191387201765704744364903698801002226 / 191126883984671767738624858156994875, (-1201661203799146922823649154809998) / 191126883984671767738624858156994875,
    (-5866241626024828041332744850998) / 17375171271333797067147714377908625, (-18185098066803399174732983550934) / 17375171271333797067147714377908625, 16116933239662049692992995162606932 / 17375171271333797067147714377908625⟩

/-- adaptation -/
noncomputable def kDCID65 : Matrix33 ℝ :=
  ⟨3772676419178422737353944579137 / 3737113404322777686203276087500, 403126203034547061384428416563 / 14948453617291110744813104350000, 29029901186310664258712895399 / 1358950328844646431346645850000,
    70254902497465757767111335387 / 3737113404322777686203276087500, 14579677963518481950475051805313 / 14948453617291110744813104350000, 11180487635651483054861494149 / 1358950328844646431346645850000,
    502797686327669714137774137 / 3737113404322777686203276087500, 32573157632818982923592086563 / 14948453617291110744813104350000, 1547386779613442964465458445399 / 1358950328844646431346645850000⟩

/-- adaptation -/
noncomputable def kDCIACES : Matrix33 ℝ :=
  ⟨3918973222575825522999660882918 / 3835595997682894654408085825125, 538000600606953830402545457007 / 15342383990731578617632343300500, 5182888107144658369667432211 / 1394762180975598056148394845500,
    94547435800341290337764151543 / 3835595997682894654408085825125, 14986448785380737867826438331257 / 15342383990731578617632343300500, 1677524481117080737487345961 / 1394762180975598056148394845500,
    (-904095007342812847666174707) / 3835595997682894654408085825125, 15209461912373524139723087007 / 15342383990731578617632343300500, 1473134051777675343237769077711 / 1394762180975598056148394845500⟩

/-- adaptation -/
noncomputable def kACESD65 : Matrix33 ℝ :=
  ⟨93503160962315176296813489136847928217 / 94616556836383569063651736924464712500, (-2984378177622458863857201987911343127) / 378466227345534276254606947697858850000, 6342199068607893813778014956909594009 / 378466227345534276254606947697858850000,
    (-179556739382703154632219688090794761) / 31538852278794523021217245641488237500, 125990440711385023102072644596969404791 / 126155409115178092084868982565952950000, 841755845023682391161629705113345503 / 126155409115178092084868982565952950000,
    33425488351196980462083225808948217 / 94616556836383569063651736924464712500, 425387285161909559979841418214601873 / 378466227345534276254606947697858850000, 408017986416381622537945291967920819009 / 378466227345534276254606947697858850000⟩

/-- adaptation -/
noncomputable def kACESDCI : Matrix33 ℝ :=
  ⟨12207586608186636420110868962565006 / 12462160474903610920237817426727875, (-47325466090029897767022526280323547) / 1345913331289589979385684282086610500, (-4584667873465154459207776205147851) / 1345913331289589979385684282086610500,
    (-2772608605843322947660078152290821) / 112159444274132498282140356840550875, 459691763957354415648716203307148151 / 448637777096529993128561427362203500, (-484452658106156609914831742885117) / 448637777096529993128561427362203500,
    81365551505920727356087644910037 / 336478332822397494846421070521652625, (-1304956844216496477585959499678547) / 1345913331289589979385684282086610500, 424770014050689564058143732915945883 / 448637777096529993128561427362203500⟩

theorem cone_inv {X : Matrix33 ℝ} (h : IsInverse cat02M X) : X = cone := by
  refine exact_inv h ?_
  rw [identity_eq, mul_def]
  ext <;> norm_num [cat02M, cone]

theorem srgb_eq : ∃ cs, Shipped.srgbDrv ratLit = .ok cs ∧ cs.white = ⟨ratLit 0.3127, ratLit 0.3290, ratLit 1.0⟩ ∧
    cs.xf_xyz_to_rgb = srgbB ∧ cs.xf_rgb_to_xyz = srgbA := by
  obtain ⟨⟨c, e, i, -⟩, -, -, -, -, -⟩ := C66_derived_real
  have hB : c.xf_xyz_to_rgb = srgbB := by
    rw [(new_ok e).1, build_eq _ _ _ _ (by norm_num) (by norm_num [tri]) (by norm_num [tri]) (by norm_num [tri])]
    ext <;> norm_num [tri, srgbB]
  refine ⟨c, e, (new_ok e).2.2, hB, ?_⟩
  rw [hB] at i
  refine exact_inv i ?_
  rw [identity_eq, mul_def]
  ext <;> norm_num [srgbA, srgbB]

theorem bt_eq : ∃ cs, Shipped.bt2020 ratLit = .ok cs ∧ cs.white = ⟨ratLit 0.3127, ratLit 0.3290, ratLit 1.0⟩ ∧
    cs.xf_xyz_to_rgb = btB ∧ cs.xf_rgb_to_xyz = btA := by
  obtain ⟨-, -, ⟨c, e, i, -⟩, -, -, -⟩ := C66_derived_real
  have hB : c.xf_xyz_to_rgb = btB := by
    rw [(new_ok e).1, build_eq _ _ _ _ (by norm_num) (by norm_num [tri]) (by norm_num [tri]) (by norm_num [tri])]
    ext <;> norm_num [tri, btB]
  refine ⟨c, e, (new_ok e).2.2, hB, ?_⟩
  rw [hB] at i
  refine exact_inv i ?_
  rw [identity_eq, mul_def]
  ext <;> norm_num [btA, btB]

theorem p3_eq : ∃ cs, Shipped.dciP3 ratLit = .ok cs ∧ cs.white = ⟨ratLit 0.314, ratLit 0.351, ratLit 1.0⟩ ∧
    cs.xf_xyz_to_rgb = p3B ∧ cs.xf_rgb_to_xyz = p3A := by
  obtain ⟨-, -, -, ⟨c, e, i, -⟩, -, -⟩ := C66_derived_real
  have hB : c.xf_xyz_to_rgb = p3B := by
    rw [(new_ok e).1, build_eq _ _ _ _ (by norm_num) (by norm_num [tri]) (by norm_num [tri]) (by norm_num [tri])]
    ext <;> norm_num [tri, p3B]
  refine ⟨c, e, (new_ok e).2.2, hB, ?_⟩
  rw [hB] at i
  refine exact_inv i ?_
  rw [identity_eq, mul_def]
  ext <;> norm_num [p3A, p3B]

theorem p3d_eq : ∃ cs, Shipped.dciP3D65 ratLit = .ok cs ∧ cs.white = ⟨ratLit 0.3127, ratLit 0.3290, ratLit 1.0⟩ ∧
    cs.xf_xyz_to_rgb = p3dB ∧ cs.xf_rgb_to_xyz = p3dA := by
  obtain ⟨-, -, -, -, ⟨c, e, i, -⟩, -⟩ := C66_derived_real
  have hB : c.xf_xyz_to_rgb = p3dB := by
    rw [(new_ok e).1, build_eq _ _ _ _ (by norm_num) (by norm_num [tri]) (by norm_num [tri]) (by norm_num [tri])]
    ext <;> norm_num [tri, p3dB]
  refine ⟨c, e, (new_ok e).2.2, hB, ?_⟩
  rw [hB] at i
  refine exact_inv i ?_
  rw [identity_eq, mul_def]
  ext <;> norm_num [p3dA, p3dB]

theorem cg_eq : ∃ cs, Shipped.acesCg ratLit = .ok cs ∧ cs.white = ⟨ratLit 0.32168, ratLit 0.33767, ratLit 1.0⟩ ∧
    cs.xf_xyz_to_rgb = cgB ∧ cs.xf_rgb_to_xyz = cgA := by
  obtain ⟨-, -, -, -, -, ⟨c, e, i, -⟩⟩ := C66_derived_real
  have hB : c.xf_xyz_to_rgb = cgB := by
    rw [(new_ok e).1, build_eq _ _ _ _ (by norm_num) (by norm_num [tri]) (by norm_num [tri]) (by norm_num [tri])]
    ext <;> norm_num [tri, cgB]
  refine ⟨c, e, (new_ok e).2.2, hB, ?_⟩
  rw [hB] at i
  refine exact_inv i ?_
  rw [identity_eq, mul_def]
  ext <;> norm_num [cgA, cgB]

theorem bt709_eq : ∃ cs, Shipped.bt709 ratLit = .ok cs ∧ cs.white = ⟨ratLit 0.3127, ratLit 0.3290, ratLit 1.0⟩ ∧
    cs.xf_xyz_to_rgb = srgbB ∧ cs.xf_rgb_to_xyz = srgbA := by
  obtain ⟨-, ⟨c, e, i, -⟩, -, -, -, -⟩ := C66_derived_real
  have hB : c.xf_xyz_to_rgb = srgbB := by
    rw [(new_ok e).1, build_eq _ _ _ _ (by norm_num) (by norm_num [tri]) (by norm_num [tri]) (by norm_num [tri])]
    ext <;> norm_num [tri, srgbB]
  refine ⟨c, e, (new_ok e).2.2, hB, ?_⟩
  rw [hB] at i
  refine exact_inv i ?_
  rw [identity_eq, mul_def]
  ext <;> norm_num [srgbA, srgbB]

theorem cat_D65DCI : cat02 (XYZ.fromChromaticity (⟨ratLit 0.3127, ratLit 0.3290, ratLit 1.0⟩ : XYY ℝ))
    (XYZ.fromChromaticity ⟨ratLit 0.314, ratLit 0.351, ratLit 1.0⟩) = .ok kD65DCI := by
  obtain ⟨MAi, h⟩ := goodCone_cat02
  have hc := cone_inv h.inv
  unfold cat02
  rw [catWith_eq h _ _ (cat02_cone.1 (by unfold Cat02NonDegenerate XYZ.fromChromaticity; norm_num [Flt.one])), hc, mulX_def, mulX_def, mul_def, mul_def]
  congr 1
  ext <;> norm_num [cone, wpScale, cat02M, XYZ.fromChromaticity, Flt.one, Flt.zero, kD65DCI]

theorem cat_D65ACES : cat02 (XYZ.fromChromaticity (⟨ratLit 0.3127, ratLit 0.3290, ratLit 1.0⟩ : XYY ℝ))
    (XYZ.fromChromaticity ⟨ratLit 0.32168, ratLit 0.33767, ratLit 1.0⟩) = .ok kD65ACES := by
  obtain ⟨MAi, h⟩ := goodCone_cat02
  have hc := cone_inv h.inv
  unfold cat02
  rw [catWith_eq h _ _ (cat02_cone.1 (by unfold Cat02NonDegenerate XYZ.fromChromaticity; norm_num [Flt.one])), hc, mulX_def, mulX_def, mul_def, mul_def]
  congr 1
  ext <;> norm_num [cone, wpScale, cat02M, XYZ.fromChromaticity, Flt.one, Flt.zero, kD65ACES]

theorem cat_DCID65 : cat02 (XYZ.fromChromaticity (⟨ratLit 0.314, ratLit 0.351, ratLit 1.0⟩ : XYY ℝ))
    (XYZ.fromChromaticity ⟨ratLit 0.3127, ratLit 0.3290, ratLit 1.0⟩) = .ok kDCID65 := by
  obtain ⟨MAi, h⟩ := goodCone_cat02
  have hc := cone_inv h.inv
  unfold cat02
  rw [catWith_eq h _ _ (cat02_cone.1 (by unfold Cat02NonDegenerate XYZ.fromChromaticity; norm_num [Flt.one])), hc, mulX_def, mulX_def, mul_def, mul_def]
  congr 1
  ext <;> norm_num [cone, wpScale, cat02M, XYZ.fromChromaticity, Flt.one, Flt.zero, kDCID65]

theorem cat_DCIACES : cat02 (XYZ.fromChromaticity (⟨ratLit 0.314, ratLit 0.351, ratLit 1.0⟩ : XYY ℝ))
    (XYZ.fromChromaticity ⟨ratLit 0.32168, ratLit 0.33767, ratLit 1.0⟩) = .ok kDCIACES := by
  obtain ⟨MAi, h⟩ := goodCone_cat02
  have hc := cone_inv h.inv
  unfold cat02
  rw [catWith_eq h _ _ (cat02_cone.1 (by unfold Cat02NonDegenerate XYZ.fromChromaticity; norm_num [Flt.one])), hc, mulX_def, mulX_def, mul_def, mul_def]
  congr 1
  ext <;> norm_num [cone, wpScale, cat02M, XYZ.fromChromaticity, Flt.one, Flt.zero, kDCIACES]

theorem cat_ACESD65 : cat02 (XYZ.fromChromaticity (⟨ratLit 0.32168, ratLit 0.33767, ratLit 1.0⟩ : XYY ℝ))
    (XYZ.fromChromaticity ⟨ratLit 0.3127, ratLit 0.3290, ratLit 1.0⟩) = .ok kACESD65 := by
  obtain ⟨MAi, h⟩ := goodCone_cat02
  have hc := cone_inv h.inv
  unfold cat02
  rw [catWith_eq h _ _ (cat02_cone.1 (by unfold Cat02NonDegenerate XYZ.fromChromaticity; norm_num [Flt.one])), hc, mulX_def, mulX_def, mul_def, mul_def]
  congr 1
  ext <;> norm_num [cone, wpScale, cat02M, XYZ.fromChromaticity, Flt.one, Flt.zero, kACESD65]

theorem cat_ACESDCI : cat02 (XYZ.fromChromaticity (⟨ratLit 0.32168, ratLit 0.33767, ratLit 1.0⟩ : XYY ℝ))
    (XYZ.fromChromaticity ⟨ratLit 0.314, ratLit 0.351, ratLit 1.0⟩) = .ok kACESDCI := by
  obtain ⟨MAi, h⟩ := goodCone_cat02
  have hc := cone_inv h.inv
  unfold cat02
  rw [catWith_eq h _ _ (cat02_cone.1 (by unfold Cat02NonDegenerate XYZ.fromChromaticity; norm_num [Flt.one])), hc, mulX_def, mulX_def, mul_def, mul_def]
  congr 1
  ext <;> norm_num [cone, wpScale, cat02M, XYZ.fromChromaticity, Flt.one, Flt.zero, kACESDCI]

end Exact
end CS
