import Verif.Lemmas.TripEval

/-!
# Evaluation of the round-trip checks in b64
The matrices of the ten spaces as dyadic numbers, and one evaluation per space and check (separate
theorems keep the kernel's memory small).
-/

namespace CS.Tripb64

set_option maxHeartbeats 4000000

abbrev F : Fmt := Fmt.b64
abbrev N : Libm F := noLibm F
abbrev l : ℚ → FP F := FP.ofQ F false
abbrev d : ℤ → ℕ → FP F := dyadic F

def srgb : ColorSpaceRGB (FP F) := tabled
  ⟨d 7297182476228415 51, d (-3461466673596963) 51, d (-8981979096827717) 54,
    d (-8727075357918547) 53, d 1055981522627697 49, d 5980780305148019 57,
    d 2006803993956293 55, d (-7349874591868649) 55, d 2380152403065307 51⟩
  ⟨d 3714568972655185 53, d 6441948906990757 54, d 1625799465480749 53,
    d 1914930561557935 53, d 6441948906990757 53, d 5202558289538397 56,
    d 5562846259728037 58, d 4294632604660505 55, d 8561342891631313 53⟩
  (Shipped.xyD65 l)

def adobeRgb1998 : ColorSpaceRGB (FP F) := tabled
  ⟨d 4597251981621665 51, d (-636144706365151) 50, d (-1552525899543431) 52,
    d (-8730137805665159) 53, d 8448617792958229 52, d 2994713608216285 56,
    d 1936908127739503 57, d (-8528736830329151) 56, d 2285959616858853 51⟩
  ⟨d 81159087409867 47, d 3342751787419477 54, d 1695425115719897 53,
    d 5356401252809373 54, d 5650756524454309 53, d 2712608127557797 55,
    d 243464595855649 53, d 2546875661270563 55, d 8929196909194935 53⟩
  (Shipped.xyD65 l)

def alexaWideGamut : ColorSpaceRGB (FP F) := tabled
  ⟨d 1007154621367653 49, d (-2173139942593595) 52, d (-7208497592366235) 55,
    d (-5763247435946769) 53, d 6288826519660161 52, d 3502575530995601 54,
    d (-2992695995583223) 56, d 5932862005112797 56, d 3958069597307853 52⟩
  ⟨d 5746665182118791 53, d 966940854394955 52, d 1760799367910807 54,
    d 5259375702437303 54, d 3710250020612537 52, d (-8343909101621865) 56,
    d 1612937184944979 59, d (-4830308758738461) 56, d 5193974428648629 52⟩
  (Shipped.xyD65 l)

def aces : ColorSpaceRGB (FP F) := tabled
  ⟨d 4727928507222441 52, d 0 0, d (-7193086490614155) 66,
    d (-4466697340090125) 53, d 6184852121327921 52, d 7078940639565185 56,
    d 0 0, d 0 0, d 1116050554948943 50⟩
  ⟨d 4289914615226113 52, d 0 0, d 3456130318766815 65,
    d 3098174350294465 53, d 6558737122623177 53, d (-324856109088325) 52,
    d 0 0, d 0 0, d 1135836181136453 50⟩
  (Shipped.xyACES l)

def srgbDrv : ColorSpaceRGB (FP F) := tabled
  ⟨d 7298015511340091 51, d (-3461879152815171) 51, d (-4491086468516979) 53,
    d (-8730170558371587) 53, d 4224303270374665 51, d 2994357456869051 56,
    d 2004284849551773 55, d (-7349044448356501) 55, d 4760176517685457 52⟩
  ⟨d 7428972199620783 54, d 6441666790411031 54, d 6502505691152273 55,
    d 7661127580858931 55, d 6441666790411031 53, d 650250569115227 53,
    d 5571729149715589 58, d 4294444526940691 55, d 8561632493350493 53⟩
  (Shipped.xyD65 l)

def bt709 : ColorSpaceRGB (FP F) := tabled
  ⟨d 7298015511340091 51, d (-3461879152815171) 51, d (-4491086468516979) 53,
    d (-8730170558371587) 53, d 4224303270374665 51, d 2994357456869051 56,
    d 2004284849551773 55, d (-7349044448356501) 55, d 4760176517685457 52⟩
  ⟨d 7428972199620783 54, d 6441666790411031 54, d 6502505691152273 55,
    d 7661127580858931 55, d 6441666790411031 53, d 650250569115227 53,
    d 5571729149715589 58, d 4294444526940691 55, d 8561632493350493 53⟩
  (Shipped.xyD65 l)

def bt2020 : ColorSpaceRGB (FP F) := tabled
  ⟨d 7731109650472521 52, d (-6407195237127733) 54, d (-2282120580765325) 53,
    d (-6004958796973075) 53, d 3639992147480255 51, d 2272486945654553 57,
    d 1271085686681131 56, d (-1540973743442193) 55, d 4242855265740661 52⟩
  ⟨d 1434302014490167 51, d 651296633102323 52, d 6084578374554651 55,
    d 4732386307696369 54, d 6106863724500605 53, d 267071188196101 52,
    d (-3765643475791797) 110, d 252856339910313 53, d 4778251910551983 52⟩
  (Shipped.xyD65 l)

def dciP3 : ColorSpaceRGB (FP F) := tabled
  ⟨d 6137041770080169 51, d (-4584677959506793) 52, d (-3964637603680109) 53,
    d (-3581118424729285) 52, d 3804938326274865 51, d 1631902066965243 56,
    d 5943582935095317 57, d (-3157528434269387) 55, d 4958145139432807 52⟩
  ⟨d 4009733230986223 53, d 4992409688140745 54, d 6207137340670167 55,
    d 7547733140679951 55, d 1624888058875997 51, d 4965709872536135 56,
    d 0 0, d 6782141463134603 57, d 4086365415941193 52⟩
  (Shipped.xyDCI_P3 l)

def dciP3D65 : ColorSpaceRGB (FP F) := tabled
  ⟨d 1403713970433611 49, d (-8389157829199103) 53, d (-7254592555161317) 54,
    d (-1867843107112723) 51, d 496145825326817 48, d 3404676043344709 57,
    d 2582964283659093 56, d (-5488799102775573) 56, d 4309424785757615 52⟩
  ⟨d 2191320743021415 52, d 4785843695842827 54, d 7141530335358933 55,
    d 8249678091374741 55, d 778828337295177 50, d 2856612134143573 55,
    d 5191271556804653 110, d 6501523511333657 57, d 4701507470777963 52⟩
  (Shipped.xyD65 l)

def acesCg : ColorSpaceRGB (FP F) := tabled
  ⟨d 7390512281297635 52, d (-5851135978637317) 54, d (-8518097354986345) 55,
    d (-186804487702779) 48, d 7274806754267777 52, d 1207422099082303 56,
    d 6757212022956551 59, d (-2387827832782551) 58, d 4451334716611253 52⟩
  ⟨d 5966856806380585 53, d 4828010354106171 55, d 5627254471961297 55,
    d 2452018294908151 53, d 3035794389324335 52, d 7737474898946783 57,
    d (-6427133278121031) 60, d 2340853505021175 59, d 4550162795687455 52⟩
  (Shipped.xyACES l)

/-- the tabled spaces with their tolerances -/
def tabX : List (ColorSpaceRGB (FP F) × ℚ) :=
  [(srgb, 8e-5), (adobeRgb1998, 2e-5), (alexaWideGamut, 3e-6), (aces, 2e-10), (srgbDrv, 1e-14), (bt709, 1e-14), (bt2020, 1e-14), (dciP3, 1e-14), (dciP3D65, 1e-14), (acesCg, 1e-14)]

/-- the tabled spaces with their tolerances -/
def tabR : List (ColorSpaceRGB (FP F) × ℚ) :=
  [(srgb, 8e-5), (adobeRgb1998, 2.5e-5), (alexaWideGamut, 3e-6), (aces, 2e-10), (srgbDrv, 1e-14), (bt709, 1e-14), (bt2020, 1e-14), (dciP3, 1e-14), (dciP3D65, 1e-14), (acesCg, 1e-14)]

theorem link_srgb : linkCheck (srgb0 l) srgb = true := by
  krefl
theorem trip_srgb : @spaceCheck F N srgb 8e-5 = true := by krefl

theorem link_adobeRgb1998 : linkCheck (adobeRgb19980 l) adobeRgb1998 = true := by
  krefl
theorem trip_adobeRgb1998 : @spaceCheck F N adobeRgb1998 2e-5 = true := by krefl

theorem link_alexaWideGamut : linkCheck (alexaWideGamut0 l) alexaWideGamut = true := by
  krefl
theorem trip_alexaWideGamut : @spaceCheck F N alexaWideGamut 3e-6 = true := by krefl

theorem link_aces : linkCheck (aces0 l) aces = true := by
  krefl
theorem trip_aces : @spaceCheck F N aces 2e-10 = true := by krefl

theorem link_srgbDrv : linkCheck (srgbDrv0 l) srgbDrv = true := by
  krefl
theorem trip_srgbDrv : @spaceCheck F N srgbDrv 1e-14 = true := by krefl

theorem link_bt709 : linkCheck (bt7090 l) bt709 = true := by
  krefl
theorem trip_bt709 : @spaceCheck F N bt709 1e-14 = true := by krefl

theorem link_bt2020 : linkCheck (bt20200 l) bt2020 = true := by
  krefl
theorem trip_bt2020 : @spaceCheck F N bt2020 1e-14 = true := by krefl

theorem link_dciP3 : linkCheck (dciP30 l) dciP3 = true := by
  krefl
theorem trip_dciP3 : @spaceCheck F N dciP3 1e-14 = true := by krefl

theorem link_dciP3D65 : linkCheck (dciP3D650 l) dciP3D65 = true := by
  krefl
theorem trip_dciP3D65 : @spaceCheck F N dciP3D65 1e-14 = true := by krefl

theorem link_acesCg : linkCheck (acesCg0 l) acesCg = true := by
  krefl
theorem trip_acesCg : @spaceCheck F N acesCg 1e-14 = true := by krefl

theorem trips : ∀ r ∈ tabX, @spaceCheck F N r.1 r.2 = true := by
  unfold tabX
  simp only [List.forall_mem_cons, List.not_mem_nil, false_implies, implies_true, and_true]
  exact ⟨trip_srgb, trip_adobeRgb1998, trip_alexaWideGamut, trip_aces, trip_srgbDrv, trip_bt709, trip_bt2020, trip_dciP3, trip_dciP3D65, trip_acesCg⟩

theorem linkX [L : Libm F] : List.Forall₂ Linked
    (Spec.xyzTolerance F 8e-5 2e-5 3e-6 2e-10 1e-14) tabX := by
  unfold Spec.xyzTolerance tabX
  dsimp only
  exact .cons (linked_of_check (srgb_same l L) link_srgb) <|
    .cons (linked_of_check (adobeRgb1998_same l L) link_adobeRgb1998) <|
    .cons (linked_of_check (alexaWideGamut_same l L) link_alexaWideGamut) <|
    .cons (linked_of_check (aces_same l L) link_aces) <|
    .cons (linked_of_check (srgbDrv_same l L) link_srgbDrv) <|
    .cons (linked_of_check (bt709_same l L) link_bt709) <|
    .cons (linked_of_check (bt2020_same l L) link_bt2020) <|
    .cons (linked_of_check (dciP3_same l L) link_dciP3) <|
    .cons (linked_of_check (dciP3D65_same l L) link_dciP3D65) <|
    .cons (linked_of_check (acesCg_same l L) link_acesCg) .nil

theorem linkR [L : Libm F] : List.Forall₂ Linked
    (Spec.xyzTolerance F 8e-5 2.5e-5 3e-6 2e-10 1e-14) tabR := by
  unfold Spec.xyzTolerance tabR
  dsimp only
  exact .cons (linked_of_check (srgb_same l L) link_srgb) <|
    .cons (linked_of_check (adobeRgb1998_same l L) link_adobeRgb1998) <|
    .cons (linked_of_check (alexaWideGamut_same l L) link_alexaWideGamut) <|
    .cons (linked_of_check (aces_same l L) link_aces) <|
    .cons (linked_of_check (srgbDrv_same l L) link_srgbDrv) <|
    .cons (linked_of_check (bt709_same l L) link_bt709) <|
    .cons (linked_of_check (bt2020_same l L) link_bt2020) <|
    .cons (linked_of_check (dciP3_same l L) link_dciP3) <|
    .cons (linked_of_check (dciP3D65_same l L) link_dciP3D65) <|
    .cons (linked_of_check (acesCg_same l L) link_acesCg) .nil

end CS.Tripb64
