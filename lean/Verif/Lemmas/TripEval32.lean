import Verif.Lemmas.TripEval

/-!
# Evaluation of the round-trip checks in b32
The matrices of the ten spaces as dyadic numbers, and one evaluation per space and check (separate
theorems keep the kernel's memory small).
-/

namespace CS.Tripb32

set_option maxHeartbeats 4000000

abbrev F : Fmt := Fmt.b32
abbrev N : Libm F := noLibm F
abbrev l : ℚ → FP F := FP.ofQ F false
abbrev d : ℤ → ℕ → FP F := dyadic F

def srgb : ColorSpaceRGB (FP F) := tabled
  ⟨d 6796031 21, d (-1611871) 20, d (-130705) 18,
    d (-16255445) 24, d 15735351 23, d 11140071 28,
    d 14951855 28, d (-427819) 21, d 8866759 23⟩
  ⟨d 1729731 22, d 11999065 25, d 6056575 25,
    d 891709 22, d 11999065 24, d 1211315 24,
    d 10361609 29, d 15998753 27, d 1993343 21⟩
  (Shipped.xyD65 l)

def adobeRgb1998 : ColorSpaceRGB (FP F) := tabled
  ⟨d 8563049 22, d (-9479295) 24, d (-11567219) 25,
    d (-16261149) 24, d 15736777 23, d 5578089 27,
    d 7215545 29, d (-7943005) 26, d 8515863 23⟩
  ⟨d 9674917 24, d 12452721 26, d 12631901 26,
    d 9977075 25, d 5262677 23, d 10105253 27,
    d 14511621 29, d 9487851 27, d 16631925 24⟩
  (Shipped.xyD65 l)

def alexaWideGamut : ColorSpaceRGB (FP F) := tabled
  ⟨d 15007773 23, d (-8095577) 24, d (-13426873) 26,
    d (-10734885) 24, d 2928463 21, d 13048111 26,
    d (-11148661) 28, d 11050817 27, d 7372479 23⟩
  ⟨d 5351999 23, d 7204271 25, d 6559489 26,
    d 9796351 25, d 6910879 23, d (-7770871) 26,
    d 6008659 31, d (-8997151) 27, d 9674531 23⟩
  (Shipped.xyD65 l)

def aces : ColorSpaceRGB (FP F) := tabled
  ⟨d 8806453 23, d 0 0, d (-1674771) 34,
    d (-64999) 17, d 11520185 23, d 6592777 26,
    d 0 0, d 0 0, d 16630449 24⟩
  ⟨d 15981177 24, d 0 0, d 12875089 37,
    d 11541599 25, d 1527075 21, d (-4840733) 26,
    d 0 0, d 0 0, d 8462639 23⟩
  (Shipped.xyACES l)

def srgbDrv : ColorSpaceRGB (FP F) := tabled
  ⟨d 13593611 22, d (-12896503) 23, d (-16730599) 25,
    d (-16261207) 24, d 7868377 22, d 11154855 28,
    d 3733273 26, d (-13688659) 26, d 8866521 23⟩
  ⟨d 3459385 23, d 2999635 23, d 12111859 26,
    d 3567491 24, d 11998541 24, d 9689485 27,
    d 5189071 28, d 15998045 27, d 996705 20⟩
  (Shipped.xyD65 l)

def bt709 : ColorSpaceRGB (FP F) := tabled
  ⟨d 13593611 22, d (-12896503) 23, d (-16730599) 25,
    d (-16261207) 24, d 7868377 22, d 11154855 28,
    d 3733273 26, d (-13688659) 26, d 8866521 23⟩
  ⟨d 3459385 23, d 2999635 23, d 12111859 26,
    d 3567491 24, d 11998541 24, d 9689485 27,
    d 5189071 28, d 15998045 27, d 996705 20⟩
  (Shipped.xyD65 l)

def bt2020 : ColorSpaceRGB (FP F) := tabled
  ⟨d 7200155 22, d (-1491791) 22, d (-8501559) 25,
    d (-5592553) 23, d 13560027 23, d 1058209 26,
    d 2367581 27, d (-5740573) 27, d 15805867 24⟩
  ⟨d 5343193 23, d 2426269 24, d 5666705 25,
    d 4407379 24, d 11374921 24, d 15918681 28,
    d (-1753515) 50, d 7535705 28, d 2225047 21⟩
  (Shipped.xyD65 l)

def dciP3 : ColorSpaceRGB (FP F) := tabled
  ⟨d 11431129 22, d (-8539625) 23, d (-14769423) 25,
    d (-13340707) 24, d 14174501 23, d 379957 24,
    d 5535395 27, d (-11762715) 27, d 9235265 23⟩
  ⟨d 7468711 24, d 9299085 25, d 11561693 26,
    d 7029375 25, d 6053179 23, d 9249353 27,
    d 8021123 52, d 12632727 28, d 951431 20⟩
  (Shipped.xyDCI_P3 l)

def dciP3D65 : ColorSpaceRGB (FP F) := tabled
  ⟨d 653655 18, d (-488313) 19, d (-13512727) 25,
    d (-3479129) 22, d 7393149 22, d 3170853 27,
    d 9622297 28, d (-5111845) 26, d 16053861 24⟩
  ⟨d 16326619 25, d 1114291 22, d 13302135 26,
    d 7683115 25, d 5802723 23, d 2660427 25,
    d (-9669499) 52, d 3027509 26, d 1094655 20⟩
  (Shipped.xyD65 l)

def acesCg : ColorSpaceRGB (FP F) := tabled
  ⟨d 6882951 22, d (-10898589) 25, d (-15866193) 26,
    d (-5567209) 23, d 13550385 23, d 8996001 29,
    d 12586355 30, d (-69495) 23, d 8291257 23⟩
  ⟨d 11114137 24, d 2248217 24, d 10481579 26,
    d 9134481 25, d 11309215 24, d 3603043 26,
    d (-5985777) 30, d 272511 26, d 8475339 23⟩
  (Shipped.xyACES l)

/-- the tabled spaces with their tolerances -/
def tabX : List (ColorSpaceRGB (FP F) × ℚ) :=
  [(srgb, 8e-5), (adobeRgb1998, 2e-5), (alexaWideGamut, 5e-6), (aces, 5e-6), (srgbDrv, 5e-6), (bt709, 5e-6), (bt2020, 5e-6), (dciP3, 5e-6), (dciP3D65, 5e-6), (acesCg, 5e-6)]

/-- the tabled spaces with their tolerances -/
def tabR : List (ColorSpaceRGB (FP F) × ℚ) :=
  [(srgb, 8e-5), (adobeRgb1998, 2.5e-5), (alexaWideGamut, 3e-6), (aces, 2e-6), (srgbDrv, 2e-6), (bt709, 2e-6), (bt2020, 2e-6), (dciP3, 2e-6), (dciP3D65, 2e-6), (acesCg, 2e-6)]

theorem link_srgb : linkCheck (srgb0 l) srgb = true := by
  krefl
theorem trip_srgb : @spaceCheck F N srgb 8e-5 = true := by krefl

theorem link_adobeRgb1998 : linkCheck (adobeRgb19980 l) adobeRgb1998 = true := by
  krefl
theorem trip_adobeRgb1998 : @spaceCheck F N adobeRgb1998 2e-5 = true := by krefl

theorem link_alexaWideGamut : linkCheck (alexaWideGamut0 l) alexaWideGamut = true := by
  krefl
theorem trip_alexaWideGamut : @spaceCheck F N alexaWideGamut 5e-6 = true := by krefl

theorem link_aces : linkCheck (aces0 l) aces = true := by
  krefl
theorem trip_aces : @spaceCheck F N aces 5e-6 = true := by krefl

theorem link_srgbDrv : linkCheck (srgbDrv0 l) srgbDrv = true := by
  krefl
theorem trip_srgbDrv : @spaceCheck F N srgbDrv 5e-6 = true := by krefl

theorem link_bt709 : linkCheck (bt7090 l) bt709 = true := by
  krefl
theorem trip_bt709 : @spaceCheck F N bt709 5e-6 = true := by krefl

theorem link_bt2020 : linkCheck (bt20200 l) bt2020 = true := by
  krefl
theorem trip_bt2020 : @spaceCheck F N bt2020 5e-6 = true := by krefl

theorem link_dciP3 : linkCheck (dciP30 l) dciP3 = true := by
  krefl
theorem trip_dciP3 : @spaceCheck F N dciP3 5e-6 = true := by krefl

theorem link_dciP3D65 : linkCheck (dciP3D650 l) dciP3D65 = true := by
  krefl
theorem trip_dciP3D65 : @spaceCheck F N dciP3D65 5e-6 = true := by krefl

theorem link_acesCg : linkCheck (acesCg0 l) acesCg = true := by
  krefl
theorem trip_acesCg : @spaceCheck F N acesCg 5e-6 = true := by krefl

theorem trips : ∀ r ∈ tabX, @spaceCheck F N r.1 r.2 = true := by
  unfold tabX
  simp only [List.forall_mem_cons, List.not_mem_nil, false_implies, implies_true, and_true]
  exact ⟨trip_srgb, trip_adobeRgb1998, trip_alexaWideGamut, trip_aces, trip_srgbDrv, trip_bt709, trip_bt2020, trip_dciP3, trip_dciP3D65, trip_acesCg⟩

theorem linkX [L : Libm F] : List.Forall₂ Linked
    (Spec.xyzTolerance F 8e-5 2e-5 5e-6 5e-6 5e-6) tabX := by
  unfold Spec.xyzTolerance tabX
  dsimp only
  exact .cons (linked_of_check (srgb_same l L) link_srgb) <|
    .cons (linked_of_check (adobeRgb1998_same l L) link_adobeRgb1998) <|
    .cons (linked_of_check (alexaWideGamut_same l L) link_alexaWideGamut) <|
    .cons (linked_of_check (aces_same l L) link_aces) <|
    .cons (linked_of_check (srgbDrv_same l L) link_srgbDrv) <|
    .cons (linked_of_check (bt709_same l L) link_bt709) <|
    .cons (linked_of_check (bt2020_same l L) link_bt2020) <|
    .cons (linked_of_check (dciP3_same l L) link_dciP3) <|
    .cons (linked_of_check (dciP3D65_same l L) link_dciP3D65) <|
    .cons (linked_of_check (acesCg_same l L) link_acesCg) .nil

theorem linkR [L : Libm F] : List.Forall₂ Linked
    (Spec.xyzTolerance F 8e-5 2.5e-5 3e-6 2e-6 2e-6) tabR := by
  unfold Spec.xyzTolerance tabR
  dsimp only
  exact .cons (linked_of_check (srgb_same l L) link_srgb) <|
    .cons (linked_of_check (adobeRgb1998_same l L) link_adobeRgb1998) <|
    .cons (linked_of_check (alexaWideGamut_same l L) link_alexaWideGamut) <|
    .cons (linked_of_check (aces_same l L) link_aces) <|
    .cons (linked_of_check (srgbDrv_same l L) link_srgbDrv) <|
    .cons (linked_of_check (bt709_same l L) link_bt709) <|
    .cons (linked_of_check (bt2020_same l L) link_bt2020) <|
    .cons (linked_of_check (dciP3_same l L) link_dciP3) <|
    .cons (linked_of_check (dciP3D65_same l L) link_dciP3D65) <|
    .cons (linked_of_check (acesCg_same l L) link_acesCg) .nil

end CS.Tripb32
