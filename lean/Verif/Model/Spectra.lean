import Verif.Model.ToXyz

/-!
# Spectra shipped with the crate: CIE 1931 observer, D illuminants, colour checker
The `vspd!` tables of `cmf.rs:36-1456`, `illuminant.rs:82-489` and `colorchecker.rs:1221-2134`, copied by
a script from the source. A table is the list of `(wavelength, value)` decimal constants as written; an
entry `q` means `lit q` (the nearest float, or the exact rational).
-/

namespace CS.Spectra
open CS

/-- the constants of `CIE_1931_2_DEGREE.x_bar`, cmf.rs:37-509 -/
def xBar : List (ℚ × ℚ) :=
  [(360.0, 0.000129900000), (361.0, 0.000145847000), (362.0, 0.000163802100),
   (363.0, 0.000184003700), (364.0, 0.000206690200), (365.0, 0.000232100000),
   (366.0, 0.000260728000), (367.0, 0.000293075000), (368.0, 0.000329388000),
   (369.0, 0.000369914000), (370.0, 0.000414900000), (371.0, 0.000464158700),
   (372.0, 0.000518986000), (373.0, 0.000581854000), (374.0, 0.000655234700),
   (375.0, 0.000741600000), (376.0, 0.000845029600), (377.0, 0.000964526800),
   (378.0, 0.001094949000), (379.0, 0.001231154000), (380.0, 0.001368000000),
   (381.0, 0.001502050000), (382.0, 0.001642328000), (383.0, 0.001802382000),
   (384.0, 0.001995757000), (385.0, 0.002236000000), (386.0, 0.002535385000),
   (387.0, 0.002892603000), (388.0, 0.003300829000), (389.0, 0.003753236000),
   (390.0, 0.004243000000), (391.0, 0.004762389000), (392.0, 0.005330048000),
   (393.0, 0.005978712000), (394.0, 0.006741117000), (395.0, 0.007650000000),
   (396.0, 0.008751373000), (397.0, 0.010028880000), (398.0, 0.011421700000),
   (399.0, 0.012869010000), (400.0, 0.014310000000), (401.0, 0.015704430000),
   (402.0, 0.017147440000), (403.0, 0.018781220000), (404.0, 0.020748010000),
   (405.0, 0.023190000000), (406.0, 0.026207360000), (407.0, 0.029782480000),
   (408.0, 0.033880920000), (409.0, 0.038468240000), (410.0, 0.043510000000),
   (411.0, 0.048995600000), (412.0, 0.055022600000), (413.0, 0.061718800000),
   (414.0, 0.069212000000), (415.0, 0.077630000000), (416.0, 0.086958110000),
   (417.0, 0.097176720000), (418.0, 0.108406300000), (419.0, 0.120767200000),
   (420.0, 0.134380000000), (421.0, 0.149358200000), (422.0, 0.165395700000),
   (423.0, 0.181983100000), (424.0, 0.198611000000), (425.0, 0.214770000000),
   (426.0, 0.230186800000), (427.0, 0.244879700000), (428.0, 0.258777300000),
   (429.0, 0.271807900000), (430.0, 0.283900000000), (431.0, 0.294943800000),
   (432.0, 0.304896500000), (433.0, 0.313787300000), (434.0, 0.321645400000),
   (435.0, 0.328500000000), (436.0, 0.334351300000), (437.0, 0.339210100000),
   (438.0, 0.343121300000), (439.0, 0.346129600000), (440.0, 0.348280000000),
   (441.0, 0.349599900000), (442.0, 0.350147400000), (443.0, 0.350013000000),
   (444.0, 0.349287000000), (445.0, 0.348060000000), (446.0, 0.346373300000),
   (447.0, 0.344262400000), (448.0, 0.341808800000), (449.0, 0.339094100000),
   (450.0, 0.336200000000), (451.0, 0.333197700000), (452.0, 0.330041100000),
   (453.0, 0.326635700000), (454.0, 0.322886800000), (455.0, 0.318700000000),
   (456.0, 0.314025100000), (457.0, 0.308884000000), (458.0, 0.303290400000),
   (459.0, 0.297257900000), (460.0, 0.290800000000), (461.0, 0.283970100000),
   (462.0, 0.276721400000), (463.0, 0.268917800000), (464.0, 0.260422700000),
   (465.0, 0.251100000000), (466.0, 0.240847500000), (467.0, 0.229851200000),
   (468.0, 0.218407200000), (469.0, 0.206811500000), (470.0, 0.195360000000),
   (471.0, 0.184213600000), (472.0, 0.173327300000), (473.0, 0.162688100000),
   (474.0, 0.152283300000), (475.0, 0.142100000000), (476.0, 0.132178600000),
   (477.0, 0.122569600000), (478.0, 0.113275200000), (479.0, 0.104297900000),
   (480.0, 0.095640000000), (481.0, 0.087299550000), (482.0, 0.079308040000),
   (483.0, 0.071717760000), (484.0, 0.064580990000), (485.0, 0.057950010000),
   (486.0, 0.051862110000), (487.0, 0.046281520000), (488.0, 0.041150880000),
   (489.0, 0.036412830000), (490.0, 0.032010000000), (491.0, 0.027917200000),
   (492.0, 0.024144400000), (493.0, 0.020687000000), (494.0, 0.017540400000),
   (495.0, 0.014700000000), (496.0, 0.012161790000), (497.0, 0.009919960000),
   (498.0, 0.007967240000), (499.0, 0.006296346000), (500.0, 0.004900000000),
   (501.0, 0.003777173000), (502.0, 0.002945320000), (503.0, 0.002424880000),
   (504.0, 0.002236293000), (505.0, 0.002400000000), (506.0, 0.002925520000),
   (507.0, 0.003836560000), (508.0, 0.005174840000), (509.0, 0.006982080000),
   (510.0, 0.009300000000), (511.0, 0.012149490000), (512.0, 0.015535880000),
   (513.0, 0.019477520000), (514.0, 0.023992770000), (515.0, 0.029100000000),
   (516.0, 0.034814850000), (517.0, 0.041120160000), (518.0, 0.047985040000),
   (519.0, 0.055378610000), (520.0, 0.063270000000), (521.0, 0.071635010000),
   (522.0, 0.080462240000), (523.0, 0.089739960000), (524.0, 0.099456450000),
   (525.0, 0.109600000000), (526.0, 0.120167400000), (527.0, 0.131114500000),
   (528.0, 0.142367900000), (529.0, 0.153854200000), (530.0, 0.165500000000),
   (531.0, 0.177257100000), (532.0, 0.189140000000), (533.0, 0.201169400000),
   (534.0, 0.213365800000), (535.0, 0.225749900000), (536.0, 0.238320900000),
   (537.0, 0.251066800000), (538.0, 0.263992200000), (539.0, 0.277101700000),
   (540.0, 0.290400000000), (541.0, 0.303891200000), (542.0, 0.317572600000),
   (543.0, 0.331438400000), (544.0, 0.345482800000), (545.0, 0.359700000000),
   (546.0, 0.374083900000), (547.0, 0.388639600000), (548.0, 0.403378400000),
   (549.0, 0.418311500000), (550.0, 0.433449900000), (551.0, 0.448795300000),
   (552.0, 0.464336000000), (553.0, 0.480064000000), (554.0, 0.495971300000),
   (555.0, 0.512050100000), (556.0, 0.528295900000), (557.0, 0.544691600000),
   (558.0, 0.561209400000), (559.0, 0.577821500000), (560.0, 0.594500000000),
   (561.0, 0.611220900000), (562.0, 0.627975800000), (563.0, 0.644760200000),
   (564.0, 0.661569700000), (565.0, 0.678400000000), (566.0, 0.695239200000),
   (567.0, 0.712058600000), (568.0, 0.728828400000), (569.0, 0.745518800000),
   (570.0, 0.762100000000), (571.0, 0.778543200000), (572.0, 0.794825600000),
   (573.0, 0.810926400000), (574.0, 0.826824800000), (575.0, 0.842500000000),
   (576.0, 0.857932500000), (577.0, 0.873081600000), (578.0, 0.887894400000),
   (579.0, 0.902318100000), (580.0, 0.916300000000), (581.0, 0.929799500000),
   (582.0, 0.942798400000), (583.0, 0.955277600000), (584.0, 0.967217900000),
   (585.0, 0.978600000000), (586.0, 0.989385600000), (587.0, 0.999548800000),
   (588.0, 1.009089200000), (589.0, 1.018006400000), (590.0, 1.026300000000),
   (591.0, 1.033982700000), (592.0, 1.040986000000), (593.0, 1.047188000000),
   (594.0, 1.052466700000), (595.0, 1.056700000000), (596.0, 1.059794400000),
   (597.0, 1.061799200000), (598.0, 1.062806800000), (599.0, 1.062909600000),
   (600.0, 1.062200000000), (601.0, 1.060735200000), (602.0, 1.058443600000),
   (603.0, 1.055224400000), (604.0, 1.050976800000), (605.0, 1.045600000000),
   (606.0, 1.039036900000), (607.0, 1.031360800000), (608.0, 1.022666200000),
   (609.0, 1.013047700000), (610.0, 1.002600000000), (611.0, 0.991367500000),
   (612.0, 0.979331400000), (613.0, 0.966491600000), (614.0, 0.952847900000),
   (615.0, 0.938400000000), (616.0, 0.923194000000), (617.0, 0.907244000000),
   (618.0, 0.890502000000), (619.0, 0.872920000000), (620.0, 0.854449900000),
   (621.0, 0.835084000000), (622.0, 0.814946000000), (623.0, 0.794186000000),
   (624.0, 0.772954000000), (625.0, 0.751400000000), (626.0, 0.729583600000),
   (627.0, 0.707588800000), (628.0, 0.685602200000), (629.0, 0.663810400000),
   (630.0, 0.642400000000), (631.0, 0.621514900000), (632.0, 0.601113800000),
   (633.0, 0.581105200000), (634.0, 0.561397700000), (635.0, 0.541900000000),
   (636.0, 0.522599500000), (637.0, 0.503546400000), (638.0, 0.484743600000),
   (639.0, 0.466193900000), (640.0, 0.447900000000), (641.0, 0.429861300000),
   (642.0, 0.412098000000), (643.0, 0.394644000000), (644.0, 0.377533300000),
   (645.0, 0.360800000000), (646.0, 0.344456300000), (647.0, 0.328516800000),
   (648.0, 0.313019200000), (649.0, 0.298001100000), (650.0, 0.283500000000),
   (651.0, 0.269544800000), (652.0, 0.256118400000), (653.0, 0.243189600000),
   (654.0, 0.230727200000), (655.0, 0.218700000000), (656.0, 0.207097100000),
   (657.0, 0.195923200000), (658.0, 0.185170800000), (659.0, 0.174832300000),
   (660.0, 0.164900000000), (661.0, 0.155366700000), (662.0, 0.146230000000),
   (663.0, 0.137490000000), (664.0, 0.129146700000), (665.0, 0.121200000000),
   (666.0, 0.113639700000), (667.0, 0.106465000000), (668.0, 0.099690440000),
   (669.0, 0.093330610000), (670.0, 0.087400000000), (671.0, 0.081900960000),
   (672.0, 0.076804280000), (673.0, 0.072077120000), (674.0, 0.067686640000),
   (675.0, 0.063600000000), (676.0, 0.059806850000), (677.0, 0.056282160000),
   (678.0, 0.052971040000), (679.0, 0.049818610000), (680.0, 0.046770000000),
   (681.0, 0.043784050000), (682.0, 0.040875360000), (683.0, 0.038072640000),
   (684.0, 0.035404610000), (685.0, 0.032900000000), (686.0, 0.030564190000),
   (687.0, 0.028380560000), (688.0, 0.026344840000), (689.0, 0.024452750000),
   (690.0, 0.022700000000), (691.0, 0.021084290000), (692.0, 0.019599880000),
   (693.0, 0.018237320000), (694.0, 0.016987170000), (695.0, 0.015840000000),
   (696.0, 0.014790640000), (697.0, 0.013831320000), (698.0, 0.012948680000),
   (699.0, 0.012129200000), (700.0, 0.011359160000), (701.0, 0.010629350000),
   (702.0, 0.009938846000), (703.0, 0.009288422000), (704.0, 0.008678854000),
   (705.0, 0.008110916000), (706.0, 0.007582388000), (707.0, 0.007088746000),
   (708.0, 0.006627313000), (709.0, 0.006195408000), (710.0, 0.005790346000),
   (711.0, 0.005409826000), (712.0, 0.005052583000), (713.0, 0.004717512000),
   (714.0, 0.004403507000), (715.0, 0.004109457000), (716.0, 0.003833913000),
   (717.0, 0.003575748000), (718.0, 0.003334342000), (719.0, 0.003109075000),
   (720.0, 0.002899327000), (721.0, 0.002704348000), (722.0, 0.002523020000),
   (723.0, 0.002354168000), (724.0, 0.002196616000), (725.0, 0.002049190000),
   (726.0, 0.001910960000), (727.0, 0.001781438000), (728.0, 0.001660110000),
   (729.0, 0.001546459000), (730.0, 0.001439971000), (731.0, 0.001340042000),
   (732.0, 0.001246275000), (733.0, 0.001158471000), (734.0, 0.001076430000),
   (735.0, 0.000999949300), (736.0, 0.000928735800), (737.0, 0.000862433200),
   (738.0, 0.000800750300), (739.0, 0.000743396000), (740.0, 0.000690078600),
   (741.0, 0.000640515600), (742.0, 0.000594502100), (743.0, 0.000551864600),
   (744.0, 0.000512429000), (745.0, 0.000476021300), (746.0, 0.000442453600),
   (747.0, 0.000411511700), (748.0, 0.000382981400), (749.0, 0.000356649100),
   (750.0, 0.000332301100), (751.0, 0.000309758600), (752.0, 0.000288887100),
   (753.0, 0.000269539400), (754.0, 0.000251568200), (755.0, 0.000234826100),
   (756.0, 0.000219171000), (757.0, 0.000204525800), (758.0, 0.000190840500),
   (759.0, 0.000178065400), (760.0, 0.000166150500), (761.0, 0.000155023600),
   (762.0, 0.000144621900), (763.0, 0.000134909800), (764.0, 0.000125852000),
   (765.0, 0.000117413000), (766.0, 0.000109551500), (767.0, 0.000102224500),
   (768.0, 0.000095394450), (769.0, 0.000089023900), (770.0, 0.000083075270),
   (771.0, 0.000077512690), (772.0, 0.000072313040), (773.0, 0.000067457780),
   (774.0, 0.000062928440), (775.0, 0.000058706520), (776.0, 0.000054770280),
   (777.0, 0.000051099180), (778.0, 0.000047676540), (779.0, 0.000044485670),
   (780.0, 0.000041509940), (781.0, 0.000038733240), (782.0, 0.000036142030),
   (783.0, 0.000033723520), (784.0, 0.000031464870), (785.0, 0.000029353260),
   (786.0, 0.000027375730), (787.0, 0.000025524330), (788.0, 0.000023793760),
   (789.0, 0.000022178700), (790.0, 0.000020673830), (791.0, 0.000019272260),
   (792.0, 0.000017966400), (793.0, 0.000016749910), (794.0, 0.000015616480),
   (795.0, 0.000014559770), (796.0, 0.000013573870), (797.0, 0.000012654360),
   (798.0, 0.000011797230), (799.0, 0.000010998440), (800.0, 0.000010253980),
   (801.0, 0.000009559646), (802.0, 0.000008912044), (803.0, 0.000008308358),
   (804.0, 0.000007745769), (805.0, 0.000007221456), (806.0, 0.000006732475),
   (807.0, 0.000006276423), (808.0, 0.000005851304), (809.0, 0.000005455118),
   (810.0, 0.000005085868), (811.0, 0.000004741466), (812.0, 0.000004420236),
   (813.0, 0.000004120783), (814.0, 0.000003841716), (815.0, 0.000003581652),
   (816.0, 0.000003339127), (817.0, 0.000003112949), (818.0, 0.000002902121),
   (819.0, 0.000002705645), (820.0, 0.000002522525), (821.0, 0.000002351726),
   (822.0, 0.000002192415), (823.0, 0.000002043902), (824.0, 0.000001905497),
   (825.0, 0.000001776509), (826.0, 0.000001656215), (827.0, 0.000001544022),
   (828.0, 0.000001439440), (829.0, 0.000001341977), (830.0, 0.000001251141)]

/-- the constants of `CIE_1931_2_DEGREE.y_bar`, cmf.rs:510-982 -/
def yBar : List (ℚ × ℚ) :=
  [(360.0, 0.000003917000), (361.0, 0.000004393581), (362.0, 0.000004929604),
   (363.0, 0.000005532136), (364.0, 0.000006208245), (365.0, 0.000006965000),
   (366.0, 0.000007813219), (367.0, 0.000008767336), (368.0, 0.000009839844),
   (369.0, 0.000011043230), (370.0, 0.000012390000), (371.0, 0.000013886410),
   (372.0, 0.000015557280), (373.0, 0.000017442960), (374.0, 0.000019583750),
   (375.0, 0.000022020000), (376.0, 0.000024839650), (377.0, 0.000028041260),
   (378.0, 0.000031531040), (379.0, 0.000035215210), (380.0, 0.000039000000),
   (381.0, 0.000042826400), (382.0, 0.000046914600), (383.0, 0.000051589600),
   (384.0, 0.000057176400), (385.0, 0.000064000000), (386.0, 0.000072344210),
   (387.0, 0.000082212240), (388.0, 0.000093508160), (389.0, 0.000106136100),
   (390.0, 0.000120000000), (391.0, 0.000134984000), (392.0, 0.000151492000),
   (393.0, 0.000170208000), (394.0, 0.000191816000), (395.0, 0.000217000000),
   (396.0, 0.000246906700), (397.0, 0.000281240000), (398.0, 0.000318520000),
   (399.0, 0.000357266700), (400.0, 0.000396000000), (401.0, 0.000433714700),
   (402.0, 0.000473024000), (403.0, 0.000517876000), (404.0, 0.000572218700),
   (405.0, 0.000640000000), (406.0, 0.000724560000), (407.0, 0.000825500000),
   (408.0, 0.000941160000), (409.0, 0.001069880000), (410.0, 0.001210000000),
   (411.0, 0.001362091000), (412.0, 0.001530752000), (413.0, 0.001720368000),
   (414.0, 0.001935323000), (415.0, 0.002180000000), (416.0, 0.002454800000),
   (417.0, 0.002764000000), (418.0, 0.003117800000), (419.0, 0.003526400000),
   (420.0, 0.004000000000), (421.0, 0.004546240000), (422.0, 0.005159320000),
   (423.0, 0.005829280000), (424.0, 0.006546160000), (425.0, 0.007300000000),
   (426.0, 0.008086507000), (427.0, 0.008908720000), (428.0, 0.009767680000),
   (429.0, 0.010664430000), (430.0, 0.011600000000), (431.0, 0.012573170000),
   (432.0, 0.013582720000), (433.0, 0.014629680000), (434.0, 0.015715090000),
   (435.0, 0.016840000000), (436.0, 0.018007360000), (437.0, 0.019214480000),
   (438.0, 0.020453920000), (439.0, 0.021718240000), (440.0, 0.023000000000),
   (441.0, 0.024294610000), (442.0, 0.025610240000), (443.0, 0.026958570000),
   (444.0, 0.028351250000), (445.0, 0.029800000000), (446.0, 0.031310830000),
   (447.0, 0.032883680000), (448.0, 0.034521120000), (449.0, 0.036225710000),
   (450.0, 0.038000000000), (451.0, 0.039846670000), (452.0, 0.041768000000),
   (453.0, 0.043766000000), (454.0, 0.045842670000), (455.0, 0.048000000000),
   (456.0, 0.050243680000), (457.0, 0.052573040000), (458.0, 0.054980560000),
   (459.0, 0.057458720000), (460.0, 0.060000000000), (461.0, 0.062601970000),
   (462.0, 0.065277520000), (463.0, 0.068042080000), (464.0, 0.070911090000),
   (465.0, 0.073900000000), (466.0, 0.077016000000), (467.0, 0.080266400000),
   (468.0, 0.083666800000), (469.0, 0.087232800000), (470.0, 0.090980000000),
   (471.0, 0.094917550000), (472.0, 0.099045840000), (473.0, 0.103367400000),
   (474.0, 0.107884600000), (475.0, 0.112600000000), (476.0, 0.117532000000),
   (477.0, 0.122674400000), (478.0, 0.127992800000), (479.0, 0.133452800000),
   (480.0, 0.139020000000), (481.0, 0.144676400000), (482.0, 0.150469300000),
   (483.0, 0.156461900000), (484.0, 0.162717700000), (485.0, 0.169300000000),
   (486.0, 0.176243100000), (487.0, 0.183558100000), (488.0, 0.191273500000),
   (489.0, 0.199418000000), (490.0, 0.208020000000), (491.0, 0.217119900000),
   (492.0, 0.226734500000), (493.0, 0.236857100000), (494.0, 0.247481200000),
   (495.0, 0.258600000000), (496.0, 0.270184900000), (497.0, 0.282293900000),
   (498.0, 0.295050500000), (499.0, 0.308578000000), (500.0, 0.323000000000),
   (501.0, 0.338402100000), (502.0, 0.354685800000), (503.0, 0.371698600000),
   (504.0, 0.389287500000), (505.0, 0.407300000000), (506.0, 0.425629900000),
   (507.0, 0.444309600000), (508.0, 0.463394400000), (509.0, 0.482939500000),
   (510.0, 0.503000000000), (511.0, 0.523569300000), (512.0, 0.544512000000),
   (513.0, 0.565690000000), (514.0, 0.586965300000), (515.0, 0.608200000000),
   (516.0, 0.629345600000), (517.0, 0.650306800000), (518.0, 0.670875200000),
   (519.0, 0.690842400000), (520.0, 0.710000000000), (521.0, 0.728185200000),
   (522.0, 0.745463600000), (523.0, 0.761969400000), (524.0, 0.777836800000),
   (525.0, 0.793200000000), (526.0, 0.808110400000), (527.0, 0.822496200000),
   (528.0, 0.836306800000), (529.0, 0.849491600000), (530.0, 0.862000000000),
   (531.0, 0.873810800000), (532.0, 0.884962400000), (533.0, 0.895493600000),
   (534.0, 0.905443200000), (535.0, 0.914850100000), (536.0, 0.923734800000),
   (537.0, 0.932092400000), (538.0, 0.939922600000), (539.0, 0.947225200000),
   (540.0, 0.954000000000), (541.0, 0.960256100000), (542.0, 0.966007400000),
   (543.0, 0.971260600000), (544.0, 0.976022500000), (545.0, 0.980300000000),
   (546.0, 0.984092400000), (547.0, 0.987418200000), (548.0, 0.990312800000),
   (549.0, 0.992811600000), (550.0, 0.994950100000), (551.0, 0.996710800000),
   (552.0, 0.998098300000), (553.0, 0.999112000000), (554.0, 0.999748200000),
   (555.0, 1.000000000000), (556.0, 0.999856700000), (557.0, 0.999304600000),
   (558.0, 0.998325500000), (559.0, 0.996898700000), (560.0, 0.995000000000),
   (561.0, 0.992600500000), (562.0, 0.989742600000), (563.0, 0.986444400000),
   (564.0, 0.982724100000), (565.0, 0.978600000000), (566.0, 0.974083700000),
   (567.0, 0.969171200000), (568.0, 0.963856800000), (569.0, 0.958134900000),
   (570.0, 0.952000000000), (571.0, 0.945450400000), (572.0, 0.938499200000),
   (573.0, 0.931162800000), (574.0, 0.923457600000), (575.0, 0.915400000000),
   (576.0, 0.907006400000), (577.0, 0.898277200000), (578.0, 0.889204800000),
   (579.0, 0.879781600000), (580.0, 0.870000000000), (581.0, 0.859861300000),
   (582.0, 0.849392000000), (583.0, 0.838622000000), (584.0, 0.827581300000),
   (585.0, 0.816300000000), (586.0, 0.804794700000), (587.0, 0.793082000000),
   (588.0, 0.781192000000), (589.0, 0.769154700000), (590.0, 0.757000000000),
   (591.0, 0.744754100000), (592.0, 0.732422400000), (593.0, 0.720003600000),
   (594.0, 0.707496500000), (595.0, 0.694900000000), (596.0, 0.682219200000),
   (597.0, 0.669471600000), (598.0, 0.656674400000), (599.0, 0.643844800000),
   (600.0, 0.631000000000), (601.0, 0.618155500000), (602.0, 0.605314400000),
   (603.0, 0.592475600000), (604.0, 0.579637900000), (605.0, 0.566800000000),
   (606.0, 0.553961100000), (607.0, 0.541137200000), (608.0, 0.528352800000),
   (609.0, 0.515632300000), (610.0, 0.503000000000), (611.0, 0.490468800000),
   (612.0, 0.478030400000), (613.0, 0.465677600000), (614.0, 0.453403200000),
   (615.0, 0.441200000000), (616.0, 0.429080000000), (617.0, 0.417036000000),
   (618.0, 0.405032000000), (619.0, 0.393032000000), (620.0, 0.381000000000),
   (621.0, 0.368918400000), (622.0, 0.356827200000), (623.0, 0.344776800000),
   (624.0, 0.332817600000), (625.0, 0.321000000000), (626.0, 0.309338100000),
   (627.0, 0.297850400000), (628.0, 0.286593600000), (629.0, 0.275624500000),
   (630.0, 0.265000000000), (631.0, 0.254763200000), (632.0, 0.244889600000),
   (633.0, 0.235334400000), (634.0, 0.226052800000), (635.0, 0.217000000000),
   (636.0, 0.208161600000), (637.0, 0.199548800000), (638.0, 0.191155200000),
   (639.0, 0.182974400000), (640.0, 0.175000000000), (641.0, 0.167223500000),
   (642.0, 0.159646400000), (643.0, 0.152277600000), (644.0, 0.145125900000),
   (645.0, 0.138200000000), (646.0, 0.131500300000), (647.0, 0.125024800000),
   (648.0, 0.118779200000), (649.0, 0.112769100000), (650.0, 0.107000000000),
   (651.0, 0.101476200000), (652.0, 0.096188640000), (653.0, 0.091122960000),
   (654.0, 0.086264850000), (655.0, 0.081600000000), (656.0, 0.077120640000),
   (657.0, 0.072825520000), (658.0, 0.068710080000), (659.0, 0.064769760000),
   (660.0, 0.061000000000), (661.0, 0.057396210000), (662.0, 0.053955040000),
   (663.0, 0.050673760000), (664.0, 0.047549650000), (665.0, 0.044580000000),
   (666.0, 0.041758720000), (667.0, 0.039084960000), (668.0, 0.036563840000),
   (669.0, 0.034200480000), (670.0, 0.032000000000), (671.0, 0.029962610000),
   (672.0, 0.028076640000), (673.0, 0.026329360000), (674.0, 0.024708050000),
   (675.0, 0.023200000000), (676.0, 0.021800770000), (677.0, 0.020501120000),
   (678.0, 0.019281080000), (679.0, 0.018120690000), (680.0, 0.017000000000),
   (681.0, 0.015903790000), (682.0, 0.014837180000), (683.0, 0.013810680000),
   (684.0, 0.012834780000), (685.0, 0.011920000000), (686.0, 0.011068310000),
   (687.0, 0.010273390000), (688.0, 0.009533311000), (689.0, 0.008846157000),
   (690.0, 0.008210000000), (691.0, 0.007623781000), (692.0, 0.007085424000),
   (693.0, 0.006591476000), (694.0, 0.006138485000), (695.0, 0.005723000000),
   (696.0, 0.005343059000), (697.0, 0.004995796000), (698.0, 0.004676404000),
   (699.0, 0.004380075000), (700.0, 0.004102000000), (701.0, 0.003838453000),
   (702.0, 0.003589099000), (703.0, 0.003354219000), (704.0, 0.003134093000),
   (705.0, 0.002929000000), (706.0, 0.002738139000), (707.0, 0.002559876000),
   (708.0, 0.002393244000), (709.0, 0.002237275000), (710.0, 0.002091000000),
   (711.0, 0.001953587000), (712.0, 0.001824580000), (713.0, 0.001703580000),
   (714.0, 0.001590187000), (715.0, 0.001484000000), (716.0, 0.001384496000),
   (717.0, 0.001291268000), (718.0, 0.001204092000), (719.0, 0.001122744000),
   (720.0, 0.001047000000), (721.0, 0.000976589600), (722.0, 0.000911108800),
   (723.0, 0.000850133200), (724.0, 0.000793238400), (725.0, 0.000740000000),
   (726.0, 0.000690082700), (727.0, 0.000643310000), (728.0, 0.000599496000),
   (729.0, 0.000558454700), (730.0, 0.000520000000), (731.0, 0.000483913600),
   (732.0, 0.000450052800), (733.0, 0.000418345200), (734.0, 0.000388718400),
   (735.0, 0.000361100000), (736.0, 0.000335383500), (737.0, 0.000311440400),
   (738.0, 0.000289165600), (739.0, 0.000268453900), (740.0, 0.000249200000),
   (741.0, 0.000231301900), (742.0, 0.000214685600), (743.0, 0.000199288400),
   (744.0, 0.000185047500), (745.0, 0.000171900000), (746.0, 0.000159778100),
   (747.0, 0.000148604400), (748.0, 0.000138301600), (749.0, 0.000128792500),
   (750.0, 0.000120000000), (751.0, 0.000111859500), (752.0, 0.000104322400),
   (753.0, 0.000097335600), (754.0, 0.000090845870), (755.0, 0.000084800000),
   (756.0, 0.000079146670), (757.0, 0.000073858000), (758.0, 0.000068916000),
   (759.0, 0.000064302670), (760.0, 0.000060000000), (761.0, 0.000055981870),
   (762.0, 0.000052225600), (763.0, 0.000048718400), (764.0, 0.000045447470),
   (765.0, 0.000042400000), (766.0, 0.000039561040), (767.0, 0.000036915120),
   (768.0, 0.000034448680), (769.0, 0.000032148160), (770.0, 0.000030000000),
   (771.0, 0.000027991250), (772.0, 0.000026113560), (773.0, 0.000024360240),
   (774.0, 0.000022724610), (775.0, 0.000021200000), (776.0, 0.000019778550),
   (777.0, 0.000018452850), (778.0, 0.000017216870), (779.0, 0.000016064590),
   (780.0, 0.000014990000), (781.0, 0.000013987280), (782.0, 0.000013051550),
   (783.0, 0.000012178180), (784.0, 0.000011362540), (785.0, 0.000010600000),
   (786.0, 0.000009885877), (787.0, 0.000009217304), (788.0, 0.000008592362),
   (789.0, 0.000008009133), (790.0, 0.000007465700), (791.0, 0.000006959567),
   (792.0, 0.000006487995), (793.0, 0.000006048699), (794.0, 0.000005639396),
   (795.0, 0.000005257800), (796.0, 0.000004901771), (797.0, 0.000004569720),
   (798.0, 0.000004260194), (799.0, 0.000003971739), (800.0, 0.000003702900),
   (801.0, 0.000003452163), (802.0, 0.000003218302), (803.0, 0.000003000300),
   (804.0, 0.000002797139), (805.0, 0.000002607800), (806.0, 0.000002431220),
   (807.0, 0.000002266531), (808.0, 0.000002113013), (809.0, 0.000001969943),
   (810.0, 0.000001836600), (811.0, 0.000001712230), (812.0, 0.000001596228),
   (813.0, 0.000001488090), (814.0, 0.000001387314), (815.0, 0.000001293400),
   (816.0, 0.000001205820), (817.0, 0.000001124143), (818.0, 0.000001048009),
   (819.0, 0.000000977058), (820.0, 0.000000910930), (821.0, 0.000000849251),
   (822.0, 0.000000791721), (823.0, 0.000000738090), (824.0, 0.000000688110),
   (825.0, 0.000000641530), (826.0, 0.000000598090), (827.0, 0.000000557575),
   (828.0, 0.000000519808), (829.0, 0.000000484612), (830.0, 0.000000451810)]

/-- the constants of `CIE_1931_2_DEGREE.z_bar`, cmf.rs:983-1455 -/
def zBar : List (ℚ × ℚ) :=
  [(360.0, 0.000606100000), (361.0, 0.000680879200), (362.0, 0.000765145600),
   (363.0, 0.000860012400), (364.0, 0.000966592800), (365.0, 0.001086000000),
   (366.0, 0.001220586000), (367.0, 0.001372729000), (368.0, 0.001543579000),
   (369.0, 0.001734286000), (370.0, 0.001946000000), (371.0, 0.002177777000),
   (372.0, 0.002435809000), (373.0, 0.002731953000), (374.0, 0.003078064000),
   (375.0, 0.003486000000), (376.0, 0.003975227000), (377.0, 0.004540880000),
   (378.0, 0.005158320000), (379.0, 0.005802907000), (380.0, 0.006450001000),
   (381.0, 0.007083216000), (382.0, 0.007745488000), (383.0, 0.008501152000),
   (384.0, 0.009414544000), (385.0, 0.010549990000), (386.0, 0.011965800000),
   (387.0, 0.013655870000), (388.0, 0.015588050000), (389.0, 0.017730150000),
   (390.0, 0.020050010000), (391.0, 0.022511360000), (392.0, 0.025202880000),
   (393.0, 0.028279720000), (394.0, 0.031897040000), (395.0, 0.036210000000),
   (396.0, 0.041437710000), (397.0, 0.047503720000), (398.0, 0.054119880000),
   (399.0, 0.060998030000), (400.0, 0.067850010000), (401.0, 0.074486320000),
   (402.0, 0.081361560000), (403.0, 0.089153640000), (404.0, 0.098540480000),
   (405.0, 0.110200000000), (406.0, 0.124613300000), (407.0, 0.141701700000),
   (408.0, 0.161303500000), (409.0, 0.183256800000), (410.0, 0.207400000000),
   (411.0, 0.233692100000), (412.0, 0.262611400000), (413.0, 0.294774600000),
   (414.0, 0.330798500000), (415.0, 0.371300000000), (416.0, 0.416209100000),
   (417.0, 0.465464200000), (418.0, 0.519694800000), (419.0, 0.579530300000),
   (420.0, 0.645600000000), (421.0, 0.718483800000), (422.0, 0.796713300000),
   (423.0, 0.877845900000), (424.0, 0.959439000000), (425.0, 1.039050100000),
   (426.0, 1.115367300000), (427.0, 1.188497100000), (428.0, 1.258123300000),
   (429.0, 1.323929600000), (430.0, 1.385600000000), (431.0, 1.442635200000),
   (432.0, 1.494803500000), (433.0, 1.542190300000), (434.0, 1.584880700000),
   (435.0, 1.622960000000), (436.0, 1.656404800000), (437.0, 1.685295900000),
   (438.0, 1.709874500000), (439.0, 1.730382100000), (440.0, 1.747060000000),
   (441.0, 1.760044600000), (442.0, 1.769623300000), (443.0, 1.776263700000),
   (444.0, 1.780433400000), (445.0, 1.782600000000), (446.0, 1.782968200000),
   (447.0, 1.781699800000), (448.0, 1.779198200000), (449.0, 1.775867100000),
   (450.0, 1.772110000000), (451.0, 1.768258900000), (452.0, 1.764039000000),
   (453.0, 1.758943800000), (454.0, 1.752466300000), (455.0, 1.744100000000),
   (456.0, 1.733559500000), (457.0, 1.720858100000), (458.0, 1.705936900000),
   (459.0, 1.688737200000), (460.0, 1.669200000000), (461.0, 1.647528700000),
   (462.0, 1.623412700000), (463.0, 1.596022300000), (464.0, 1.564528000000),
   (465.0, 1.528100000000), (466.0, 1.486111400000), (467.0, 1.439521500000),
   (468.0, 1.389879900000), (469.0, 1.338736200000), (470.0, 1.287640000000),
   (471.0, 1.237422300000), (472.0, 1.187824300000), (473.0, 1.138761100000),
   (474.0, 1.090148000000), (475.0, 1.041900000000), (476.0, 0.994197600000),
   (477.0, 0.947347300000), (478.0, 0.901453100000), (479.0, 0.856619300000),
   (480.0, 0.812950100000), (481.0, 0.770517300000), (482.0, 0.729444800000),
   (483.0, 0.689913600000), (484.0, 0.652104900000), (485.0, 0.616200000000),
   (486.0, 0.582328600000), (487.0, 0.550416200000), (488.0, 0.520337600000),
   (489.0, 0.491967300000), (490.0, 0.465180000000), (491.0, 0.439924600000),
   (492.0, 0.416183600000), (493.0, 0.393882200000), (494.0, 0.372945900000),
   (495.0, 0.353300000000), (496.0, 0.334857800000), (497.0, 0.317552100000),
   (498.0, 0.301337500000), (499.0, 0.286168600000), (500.0, 0.272000000000),
   (501.0, 0.258817100000), (502.0, 0.246483800000), (503.0, 0.234771800000),
   (504.0, 0.223453300000), (505.0, 0.212300000000), (506.0, 0.201169200000),
   (507.0, 0.190119600000), (508.0, 0.179225400000), (509.0, 0.168560800000),
   (510.0, 0.158200000000), (511.0, 0.148138300000), (512.0, 0.138375800000),
   (513.0, 0.128994200000), (514.0, 0.120075100000), (515.0, 0.111700000000),
   (516.0, 0.103904800000), (517.0, 0.096667480000), (518.0, 0.089982720000),
   (519.0, 0.083845310000), (520.0, 0.078249990000), (521.0, 0.073208990000),
   (522.0, 0.068678160000), (523.0, 0.064567840000), (524.0, 0.060788350000),
   (525.0, 0.057250010000), (526.0, 0.053904350000), (527.0, 0.050746640000),
   (528.0, 0.047752760000), (529.0, 0.044898590000), (530.0, 0.042160000000),
   (531.0, 0.039507280000), (532.0, 0.036935640000), (533.0, 0.034458360000),
   (534.0, 0.032088720000), (535.0, 0.029840000000), (536.0, 0.027711810000),
   (537.0, 0.025694440000), (538.0, 0.023787160000), (539.0, 0.021989250000),
   (540.0, 0.020300000000), (541.0, 0.018718050000), (542.0, 0.017240360000),
   (543.0, 0.015863640000), (544.0, 0.014584610000), (545.0, 0.013400000000),
   (546.0, 0.012307230000), (547.0, 0.011301880000), (548.0, 0.010377920000),
   (549.0, 0.009529306000), (550.0, 0.008749999000), (551.0, 0.008035200000),
   (552.0, 0.007381600000), (553.0, 0.006785400000), (554.0, 0.006242800000),
   (555.0, 0.005749999000), (556.0, 0.005303600000), (557.0, 0.004899800000),
   (558.0, 0.004534200000), (559.0, 0.004202400000), (560.0, 0.003900000000),
   (561.0, 0.003623200000), (562.0, 0.003370600000), (563.0, 0.003141400000),
   (564.0, 0.002934800000), (565.0, 0.002749999000), (566.0, 0.002585200000),
   (567.0, 0.002438600000), (568.0, 0.002309400000), (569.0, 0.002196800000),
   (570.0, 0.002100000000), (571.0, 0.002017733000), (572.0, 0.001948200000),
   (573.0, 0.001889800000), (574.0, 0.001840933000), (575.0, 0.001800000000),
   (576.0, 0.001766267000), (577.0, 0.001737800000), (578.0, 0.001711200000),
   (579.0, 0.001683067000), (580.0, 0.001650001000), (581.0, 0.001610133000),
   (582.0, 0.001564400000), (583.0, 0.001513600000), (584.0, 0.001458533000),
   (585.0, 0.001400000000), (586.0, 0.001336667000), (587.0, 0.001270000000),
   (588.0, 0.001205000000), (589.0, 0.001146667000), (590.0, 0.001100000000),
   (591.0, 0.001068800000), (592.0, 0.001049400000), (593.0, 0.001035600000),
   (594.0, 0.001021200000), (595.0, 0.001000000000), (596.0, 0.000968640000),
   (597.0, 0.000929920000), (598.0, 0.000886880000), (599.0, 0.000842560000),
   (600.0, 0.000800000000), (601.0, 0.000760960000), (602.0, 0.000723680000),
   (603.0, 0.000685920000), (604.0, 0.000645440000), (605.0, 0.000600000000),
   (606.0, 0.000547866700), (607.0, 0.000491600000), (608.0, 0.000435400000),
   (609.0, 0.000383466700), (610.0, 0.000340000000), (611.0, 0.000307253300),
   (612.0, 0.000283160000), (613.0, 0.000265440000), (614.0, 0.000251813300),
   (615.0, 0.000240000000), (616.0, 0.000229546700), (617.0, 0.000220640000),
   (618.0, 0.000211960000), (619.0, 0.000202186700), (620.0, 0.000190000000),
   (621.0, 0.000174213300), (622.0, 0.000155640000), (623.0, 0.000135960000),
   (624.0, 0.000116853300), (625.0, 0.000100000000), (626.0, 0.000086133330),
   (627.0, 0.000074600000), (628.0, 0.000065000000), (629.0, 0.000056933330),
   (630.0, 0.000049999990), (631.0, 0.000044160000), (632.0, 0.000039480000),
   (633.0, 0.000035720000), (634.0, 0.000032640000), (635.0, 0.000030000000),
   (636.0, 0.000027653330), (637.0, 0.000025560000), (638.0, 0.000023640000),
   (639.0, 0.000021813330), (640.0, 0.000020000000), (641.0, 0.000018133330),
   (642.0, 0.000016200000), (643.0, 0.000014200000), (644.0, 0.000012133330),
   (645.0, 0.000010000000), (646.0, 0.000007733333), (647.0, 0.000005400000),
   (648.0, 0.000003200000), (649.0, 0.000001333333), (650.0, 0.000000000000),
   (651.0, 0.000000000000), (652.0, 0.000000000000), (653.0, 0.000000000000),
   (654.0, 0.000000000000), (655.0, 0.000000000000), (656.0, 0.000000000000),
   (657.0, 0.000000000000), (658.0, 0.000000000000), (659.0, 0.000000000000),
   (660.0, 0.000000000000), (661.0, 0.000000000000), (662.0, 0.000000000000),
   (663.0, 0.000000000000), (664.0, 0.000000000000), (665.0, 0.000000000000),
   (666.0, 0.000000000000), (667.0, 0.000000000000), (668.0, 0.000000000000),
   (669.0, 0.000000000000), (670.0, 0.000000000000), (671.0, 0.000000000000),
   (672.0, 0.000000000000), (673.0, 0.000000000000), (674.0, 0.000000000000),
   (675.0, 0.000000000000), (676.0, 0.000000000000), (677.0, 0.000000000000),
   (678.0, 0.000000000000), (679.0, 0.000000000000), (680.0, 0.000000000000),
   (681.0, 0.000000000000), (682.0, 0.000000000000), (683.0, 0.000000000000),
   (684.0, 0.000000000000), (685.0, 0.000000000000), (686.0, 0.000000000000),
   (687.0, 0.000000000000), (688.0, 0.000000000000), (689.0, 0.000000000000),
   (690.0, 0.000000000000), (691.0, 0.000000000000), (692.0, 0.000000000000),
   (693.0, 0.000000000000), (694.0, 0.000000000000), (695.0, 0.000000000000),
   (696.0, 0.000000000000), (697.0, 0.000000000000), (698.0, 0.000000000000),
   (699.0, 0.000000000000), (700.0, 0.000000000000), (701.0, 0.000000000000),
   (702.0, 0.000000000000), (703.0, 0.000000000000), (704.0, 0.000000000000),
   (705.0, 0.000000000000), (706.0, 0.000000000000), (707.0, 0.000000000000),
   (708.0, 0.000000000000), (709.0, 0.000000000000), (710.0, 0.000000000000),
   (711.0, 0.000000000000), (712.0, 0.000000000000), (713.0, 0.000000000000),
   (714.0, 0.000000000000), (715.0, 0.000000000000), (716.0, 0.000000000000),
   (717.0, 0.000000000000), (718.0, 0.000000000000), (719.0, 0.000000000000),
   (720.0, 0.000000000000), (721.0, 0.000000000000), (722.0, 0.000000000000),
   (723.0, 0.000000000000), (724.0, 0.000000000000), (725.0, 0.000000000000),
   (726.0, 0.000000000000), (727.0, 0.000000000000), (728.0, 0.000000000000),
   (729.0, 0.000000000000), (730.0, 0.000000000000), (731.0, 0.000000000000),
   (732.0, 0.000000000000), (733.0, 0.000000000000), (734.0, 0.000000000000),
   (735.0, 0.000000000000), (736.0, 0.000000000000), (737.0, 0.000000000000),
   (738.0, 0.000000000000), (739.0, 0.000000000000), (740.0, 0.000000000000),
   (741.0, 0.000000000000), (742.0, 0.000000000000), (743.0, 0.000000000000),
   (744.0, 0.000000000000), (745.0, 0.000000000000), (746.0, 0.000000000000),
   (747.0, 0.000000000000), (748.0, 0.000000000000), (749.0, 0.000000000000),
   (750.0, 0.000000000000), (751.0, 0.000000000000), (752.0, 0.000000000000),
   (753.0, 0.000000000000), (754.0, 0.000000000000), (755.0, 0.000000000000),
   (756.0, 0.000000000000), (757.0, 0.000000000000), (758.0, 0.000000000000),
   (759.0, 0.000000000000), (760.0, 0.000000000000), (761.0, 0.000000000000),
   (762.0, 0.000000000000), (763.0, 0.000000000000), (764.0, 0.000000000000),
   (765.0, 0.000000000000), (766.0, 0.000000000000), (767.0, 0.000000000000),
   (768.0, 0.000000000000), (769.0, 0.000000000000), (770.0, 0.000000000000),
   (771.0, 0.000000000000), (772.0, 0.000000000000), (773.0, 0.000000000000),
   (774.0, 0.000000000000), (775.0, 0.000000000000), (776.0, 0.000000000000),
   (777.0, 0.000000000000), (778.0, 0.000000000000), (779.0, 0.000000000000),
   (780.0, 0.000000000000), (781.0, 0.000000000000), (782.0, 0.000000000000),
   (783.0, 0.000000000000), (784.0, 0.000000000000), (785.0, 0.000000000000),
   (786.0, 0.000000000000), (787.0, 0.000000000000), (788.0, 0.000000000000),
   (789.0, 0.000000000000), (790.0, 0.000000000000), (791.0, 0.000000000000),
   (792.0, 0.000000000000), (793.0, 0.000000000000), (794.0, 0.000000000000),
   (795.0, 0.000000000000), (796.0, 0.000000000000), (797.0, 0.000000000000),
   (798.0, 0.000000000000), (799.0, 0.000000000000), (800.0, 0.000000000000),
   (801.0, 0.000000000000), (802.0, 0.000000000000), (803.0, 0.000000000000),
   (804.0, 0.000000000000), (805.0, 0.000000000000), (806.0, 0.000000000000),
   (807.0, 0.000000000000), (808.0, 0.000000000000), (809.0, 0.000000000000),
   (810.0, 0.000000000000), (811.0, 0.000000000000), (812.0, 0.000000000000),
   (813.0, 0.000000000000), (814.0, 0.000000000000), (815.0, 0.000000000000),
   (816.0, 0.000000000000), (817.0, 0.000000000000), (818.0, 0.000000000000),
   (819.0, 0.000000000000), (820.0, 0.000000000000), (821.0, 0.000000000000),
   (822.0, 0.000000000000), (823.0, 0.000000000000), (824.0, 0.000000000000),
   (825.0, 0.000000000000), (826.0, 0.000000000000), (827.0, 0.000000000000),
   (828.0, 0.000000000000), (829.0, 0.000000000000), (830.0, 0.000000000000)]

/-- the constants of `spd::D50`, illuminant.rs:83-181 -/
def d50 : List (ℚ × ℚ) :=
  [(300.0, 0.019), (305.0, 1.035), (310.0, 2.051), (315.0, 4.914), (320.0, 7.778), (325.0, 11.263),
   (330.0, 14.748), (335.0, 16.348), (340.0, 17.948), (345.0, 19.479), (350.0, 21.010),
   (355.0, 22.476), (360.0, 23.942), (365.0, 25.451), (370.0, 26.961), (375.0, 25.724),
   (380.0, 24.488), (385.0, 27.179), (390.0, 29.871), (395.0, 39.589), (400.0, 49.308),
   (405.0, 52.910), (410.0, 56.513), (415.0, 58.273), (420.0, 60.034), (425.0, 58.926),
   (430.0, 57.818), (435.0, 66.321), (440.0, 74.825), (445.0, 81.036), (450.0, 87.247),
   (455.0, 88.930), (460.0, 90.612), (465.0, 90.990), (470.0, 91.368), (475.0, 93.238),
   (480.0, 95.109), (485.0, 93.536), (490.0, 91.963), (495.0, 93.843), (500.0, 95.724),
   (505.0, 96.169), (510.0, 96.613), (515.0, 96.871), (520.0, 97.129), (525.0, 99.614),
   (530.0, 102.099), (535.0, 101.427), (540.0, 100.755), (545.0, 101.536), (550.0, 102.317),
   (555.0, 101.159), (560.0, 100.000), (565.0, 98.868), (570.0, 97.735), (575.0, 98.327),
   (580.0, 98.918), (585.0, 96.208), (590.0, 93.499), (595.0, 95.593), (600.0, 97.688),
   (605.0, 98.478), (610.0, 99.269), (615.0, 99.155), (620.0, 99.042), (625.0, 97.382),
   (630.0, 95.722), (635.0, 97.290), (640.0, 98.857), (645.0, 97.262), (650.0, 95.667),
   (655.0, 96.929), (660.0, 98.190), (665.0, 100.597), (670.0, 103.003), (675.0, 101.068),
   (680.0, 99.133), (685.0, 93.257), (690.0, 87.381), (695.0, 89.492), (700.0, 91.604),
   (705.0, 92.246), (710.0, 92.889), (715.0, 84.872), (720.0, 76.854), (725.0, 81.683),
   (730.0, 86.511), (735.0, 89.546), (740.0, 92.580), (745.0, 85.405), (750.0, 78.230),
   (755.0, 67.961), (760.0, 57.692), (765.0, 70.307), (770.0, 82.923), (775.0, 80.599),
   (780.0, 78.274)]

/-- the constants of `spd::D55`, illuminant.rs:182-280 -/
def d55 : List (ℚ × ℚ) :=
  [(300.0, 0.024), (305.0, 1.048), (310.0, 2.072), (315.0, 6.648), (320.0, 11.224),
   (325.0, 15.936), (330.0, 20.647), (335.0, 22.266), (340.0, 23.885), (345.0, 25.851),
   (350.0, 27.817), (355.0, 29.219), (360.0, 30.621), (365.0, 32.464), (370.0, 34.308),
   (375.0, 33.446), (380.0, 32.584), (385.0, 35.335), (390.0, 38.087), (395.0, 49.518),
   (400.0, 60.949), (405.0, 64.751), (410.0, 68.554), (415.0, 70.065), (420.0, 71.577),
   (425.0, 69.746), (430.0, 67.914), (435.0, 76.760), (440.0, 85.605), (445.0, 91.799),
   (450.0, 97.993), (455.0, 99.228), (460.0, 100.463), (465.0, 100.188), (470.0, 99.913),
   (475.0, 101.326), (480.0, 102.739), (485.0, 100.409), (490.0, 98.078), (495.0, 99.379),
   (500.0, 100.680), (505.0, 100.688), (510.0, 100.695), (515.0, 100.341), (520.0, 99.987),
   (525.0, 102.098), (530.0, 104.210), (535.0, 103.156), (540.0, 102.102), (545.0, 102.535),
   (550.0, 102.968), (555.0, 101.484), (560.0, 100.000), (565.0, 98.608), (570.0, 97.216),
   (575.0, 97.482), (580.0, 97.749), (585.0, 94.590), (590.0, 91.432), (595.0, 92.926),
   (600.0, 94.419), (605.0, 94.780), (610.0, 95.140), (615.0, 94.680), (620.0, 94.220),
   (625.0, 92.334), (630.0, 90.448), (635.0, 91.389), (640.0, 92.330), (645.0, 90.592),
   (650.0, 88.854), (655.0, 89.586), (660.0, 90.317), (665.0, 92.133), (670.0, 93.950),
   (675.0, 91.953), (680.0, 89.956), (685.0, 84.817), (690.0, 79.677), (695.0, 81.258),
   (700.0, 82.840), (705.0, 83.842), (710.0, 84.844), (715.0, 77.539), (720.0, 70.235),
   (725.0, 74.768), (730.0, 79.301), (735.0, 82.147), (740.0, 84.993), (745.0, 78.437),
   (750.0, 71.880), (755.0, 62.337), (760.0, 52.793), (765.0, 64.360), (770.0, 75.927),
   (775.0, 73.872), (780.0, 71.818)]

/-- the constants of `spd::D60`, illuminant.rs:281-389 -/
def d60 : List (ℚ × ℚ) :=
  [(300.0, 0.029300000000000), (305.0, 1.289900000000000), (310.0, 2.550500000000000),
   (315.0, 9.041250000000000), (320.0, 15.532000000000000), (325.0, 21.966749999999998),
   (330.0, 28.401499999999999), (335.0, 29.958349999999996), (340.0, 31.515199999999993),
   (345.0, 33.784249999999993), (350.0, 36.053299999999993), (355.0, 37.231000000000002),
   (360.0, 38.408700000000003), (365.0, 40.673299999999998), (370.0, 42.937899999999999),
   (375.0, 42.088699999999989), (380.0, 41.239499999999992), (385.0, 43.844649999999994),
   (390.0, 46.449799999999996), (395.0, 59.301949999999998), (400.0, 72.154099999999985),
   (405.0, 76.222049999999996), (410.0, 80.289999999999992), (415.0, 81.534099999999995),
   (420.0, 82.778199999999998), (425.0, 80.177449999999993), (430.0, 77.576700000000002),
   (435.0, 86.598399999999998), (440.0, 95.620100000000008), (445.0, 101.762249999999995),
   (450.0, 107.904399999999995), (455.0, 108.711099999999988), (460.0, 109.517799999999994),
   (465.0, 108.622950000000003), (470.0, 107.728099999999998), (475.0, 108.691100000000006),
   (480.0, 109.654100000000000), (485.0, 106.669200000000004), (490.0, 103.684299999999993),
   (495.0, 104.449399999999997), (500.0, 105.214499999999987), (505.0, 104.814899999999994),
   (510.0, 104.415300000000002), (515.0, 103.469750000000005), (520.0, 102.524200000000008),
   (525.0, 104.290850000000006), (530.0, 106.057500000000005), (535.0, 104.685499999999990),
   (540.0, 103.313499999999991), (545.0, 103.426649999999995), (550.0, 103.539800000000014),
   (555.0, 101.769899999999993), (560.0, 100.000000000000000), (565.0, 98.375900000000001),
   (570.0, 96.751799999999989), (575.0, 96.731899999999996), (580.0, 96.712000000000003),
   (585.0, 93.295199999999994), (590.0, 89.878399999999999), (595.0, 90.907100000000000),
   (600.0, 91.935800000000000), (605.0, 91.975850000000008), (610.0, 92.015900000000002),
   (615.0, 91.284099999999995), (620.0, 90.552300000000002), (625.0, 88.488850000000014),
   (630.0, 86.425399999999996), (635.0, 86.933099999999996), (640.0, 87.440799999999996),
   (645.0, 85.631000000000000), (650.0, 83.821200000000005), (655.0, 84.180300000000003),
   (660.0, 84.539400000000001), (665.0, 85.911799999999999), (670.0, 87.284199999999998),
   (675.0, 85.272999999999996), (680.0, 83.261799999999994), (685.0, 78.628749999999997),
   (690.0, 73.995699999999999), (695.0, 75.204800000000006), (700.0, 76.413899999999998),
   (705.0, 77.643449999999987), (710.0, 78.873000000000005), (715.0, 72.098499999999987),
   (720.0, 65.323999999999998), (725.0, 69.635199999999998), (730.0, 73.946400000000011),
   (735.0, 76.652699999999996), (740.0, 79.358999999999995), (745.0, 73.262649999999994),
   (750.0, 67.166299999999993), (755.0, 58.165050000000001), (760.0, 49.163800000000002),
   (765.0, 59.950200000000002), (770.0, 70.736599999999996), (775.0, 68.878900000000002),
   (780.0, 67.021200000000007), (785.0, 67.522600000000011), (790.0, 68.024000000000001),
   (795.0, 65.439549999999997), (800.0, 62.855099999999993), (805.0, 58.865049999999997),
   (810.0, 54.875000000000000), (815.0, 57.786200000000001), (820.0, 60.697400000000002),
   (825.0, 62.226949999999995), (830.0, 63.756500000000003)]

/-- the constants of `spd::D65`, illuminant.rs:390-488 -/
def d65 : List (ℚ × ℚ) :=
  [(300.0, 0.034100), (305.0, 1.664300), (310.0, 3.294500), (315.0, 11.765200), (320.0, 20.236000),
   (325.0, 28.644700), (330.0, 37.053500), (335.0, 38.501100), (340.0, 39.948800),
   (345.0, 42.430200), (350.0, 44.911700), (355.0, 45.775000), (360.0, 46.638300),
   (365.0, 49.363700), (370.0, 52.089100), (375.0, 51.032300), (380.0, 49.975500),
   (385.0, 52.311800), (390.0, 54.648200), (395.0, 68.701500), (400.0, 82.754900),
   (405.0, 87.120400), (410.0, 91.486000), (415.0, 92.458900), (420.0, 93.431800),
   (425.0, 90.057000), (430.0, 86.682300), (435.0, 95.773600), (440.0, 104.865000),
   (445.0, 110.936000), (450.0, 117.008000), (455.0, 117.410000), (460.0, 117.812000),
   (465.0, 116.336000), (470.0, 114.861000), (475.0, 115.392000), (480.0, 115.923000),
   (485.0, 112.367000), (490.0, 108.811000), (495.0, 109.082000), (500.0, 109.354000),
   (505.0, 108.578000), (510.0, 107.802000), (515.0, 106.296000), (520.0, 104.790000),
   (525.0, 106.239000), (530.0, 107.689000), (535.0, 106.047000), (540.0, 104.405000),
   (545.0, 104.225000), (550.0, 104.046000), (555.0, 102.023000), (560.0, 100.000000),
   (565.0, 98.167100), (570.0, 96.334200), (575.0, 96.061100), (580.0, 95.788000),
   (585.0, 92.236800), (590.0, 88.685600), (595.0, 89.345900), (600.0, 90.006200),
   (605.0, 89.802600), (610.0, 89.599100), (615.0, 88.648900), (620.0, 87.698700),
   (625.0, 85.493600), (630.0, 83.288600), (635.0, 83.493900), (640.0, 83.699200),
   (645.0, 81.863000), (650.0, 80.026800), (655.0, 80.120700), (660.0, 80.214600),
   (665.0, 81.246200), (670.0, 82.277800), (675.0, 80.281000), (680.0, 78.284200),
   (685.0, 74.002700), (690.0, 69.721300), (695.0, 70.665200), (700.0, 71.609100),
   (705.0, 72.979000), (710.0, 74.349000), (715.0, 67.976500), (720.0, 61.604000),
   (725.0, 65.744800), (730.0, 69.885600), (735.0, 72.486300), (740.0, 75.087000),
   (745.0, 69.339800), (750.0, 63.592700), (755.0, 55.005400), (760.0, 46.418200),
   (765.0, 56.611800), (770.0, 66.805400), (775.0, 65.094100), (780.0, 63.382800)]

/-- the constants of `SPECTRAL["dark_skin"]`, colorchecker.rs:1222-1259 -/
def ccDarkSkin : List (ℚ × ℚ) :=
  [(380.000000, 0.055000), (390.000000, 0.058000), (400.000000, 0.061000), (410.000000, 0.062000),
   (420.000000, 0.062000), (430.000000, 0.062000), (440.000000, 0.062000), (450.000000, 0.062000),
   (460.000000, 0.062000), (470.000000, 0.062000), (480.000000, 0.062000), (490.000000, 0.063000),
   (500.000000, 0.065000), (510.000000, 0.070000), (520.000000, 0.076000), (530.000000, 0.079000),
   (540.000000, 0.081000), (550.000000, 0.084000), (560.000000, 0.091000), (570.000000, 0.103000),
   (580.000000, 0.119000), (590.000000, 0.134000), (600.000000, 0.143000), (610.000000, 0.147000),
   (620.000000, 0.151000), (630.000000, 0.158000), (640.000000, 0.168000), (650.000000, 0.179000),
   (660.000000, 0.188000), (670.000000, 0.190000), (680.000000, 0.186000), (690.000000, 0.181000),
   (700.000000, 0.182000), (710.000000, 0.187000), (720.000000, 0.196000), (730.000000, 0.209000)]

/-- the constants of `SPECTRAL["light_skin"]`, colorchecker.rs:1260-1297 -/
def ccLightSkin : List (ℚ × ℚ) :=
  [(380.000000, 0.117000), (390.000000, 0.143000), (400.000000, 0.175000), (410.000000, 0.191000),
   (420.000000, 0.196000), (430.000000, 0.199000), (440.000000, 0.204000), (450.000000, 0.213000),
   (460.000000, 0.228000), (470.000000, 0.251000), (480.000000, 0.280000), (490.000000, 0.309000),
   (500.000000, 0.329000), (510.000000, 0.333000), (520.000000, 0.315000), (530.000000, 0.286000),
   (540.000000, 0.273000), (550.000000, 0.276000), (560.000000, 0.277000), (570.000000, 0.289000),
   (580.000000, 0.339000), (590.000000, 0.420000), (600.000000, 0.488000), (610.000000, 0.525000),
   (620.000000, 0.546000), (630.000000, 0.562000), (640.000000, 0.578000), (650.000000, 0.595000),
   (660.000000, 0.612000), (670.000000, 0.625000), (680.000000, 0.638000), (690.000000, 0.656000),
   (700.000000, 0.678000), (710.000000, 0.700000), (720.000000, 0.717000), (730.000000, 0.734000)]

/-- the constants of `SPECTRAL["blue_sky"]`, colorchecker.rs:1298-1335 -/
def ccBlueSky : List (ℚ × ℚ) :=
  [(380.000000, 0.130000), (390.000000, 0.177000), (400.000000, 0.251000), (410.000000, 0.306000),
   (420.000000, 0.324000), (430.000000, 0.330000), (440.000000, 0.333000), (450.000000, 0.331000),
   (460.000000, 0.323000), (470.000000, 0.311000), (480.000000, 0.298000), (490.000000, 0.285000),
   (500.000000, 0.269000), (510.000000, 0.250000), (520.000000, 0.231000), (530.000000, 0.214000),
   (540.000000, 0.199000), (550.000000, 0.185000), (560.000000, 0.169000), (570.000000, 0.157000),
   (580.000000, 0.149000), (590.000000, 0.145000), (600.000000, 0.142000), (610.000000, 0.141000),
   (620.000000, 0.141000), (630.000000, 0.141000), (640.000000, 0.143000), (650.000000, 0.147000),
   (660.000000, 0.152000), (670.000000, 0.154000), (680.000000, 0.150000), (690.000000, 0.144000),
   (700.000000, 0.136000), (710.000000, 0.132000), (720.000000, 0.135000), (730.000000, 0.147000)]

/-- the constants of `SPECTRAL["foliage"]`, colorchecker.rs:1336-1373 -/
def ccFoliage : List (ℚ × ℚ) :=
  [(380.000000, 0.051000), (390.000000, 0.054000), (400.000000, 0.056000), (410.000000, 0.057000),
   (420.000000, 0.058000), (430.000000, 0.059000), (440.000000, 0.060000), (450.000000, 0.061000),
   (460.000000, 0.062000), (470.000000, 0.063000), (480.000000, 0.065000), (490.000000, 0.067000),
   (500.000000, 0.075000), (510.000000, 0.101000), (520.000000, 0.145000), (530.000000, 0.178000),
   (540.000000, 0.184000), (550.000000, 0.170000), (560.000000, 0.149000), (570.000000, 0.133000),
   (580.000000, 0.122000), (590.000000, 0.115000), (600.000000, 0.109000), (610.000000, 0.105000),
   (620.000000, 0.104000), (630.000000, 0.106000), (640.000000, 0.109000), (650.000000, 0.112000),
   (660.000000, 0.114000), (670.000000, 0.114000), (680.000000, 0.112000), (690.000000, 0.112000),
   (700.000000, 0.115000), (710.000000, 0.120000), (720.000000, 0.125000), (730.000000, 0.130000)]

/-- the constants of `SPECTRAL["blue_flower"]`, colorchecker.rs:1374-1411 -/
def ccBlueFlower : List (ℚ × ℚ) :=
  [(380.000000, 0.144000), (390.000000, 0.198000), (400.000000, 0.294000), (410.000000, 0.375000),
   (420.000000, 0.408000), (430.000000, 0.421000), (440.000000, 0.426000), (450.000000, 0.426000),
   (460.000000, 0.419000), (470.000000, 0.403000), (480.000000, 0.379000), (490.000000, 0.346000),
   (500.000000, 0.311000), (510.000000, 0.281000), (520.000000, 0.254000), (530.000000, 0.229000),
   (540.000000, 0.214000), (550.000000, 0.208000), (560.000000, 0.202000), (570.000000, 0.194000),
   (580.000000, 0.193000), (590.000000, 0.200000), (600.000000, 0.214000), (610.000000, 0.230000),
   (620.000000, 0.241000), (630.000000, 0.254000), (640.000000, 0.279000), (650.000000, 0.313000),
   (660.000000, 0.348000), (670.000000, 0.366000), (680.000000, 0.366000), (690.000000, 0.359000),
   (700.000000, 0.358000), (710.000000, 0.365000), (720.000000, 0.377000), (730.000000, 0.398000)]

/-- the constants of `SPECTRAL["bluish_green"]`, colorchecker.rs:1412-1449 -/
def ccBluishGreen : List (ℚ × ℚ) :=
  [(380.000000, 0.136000), (390.000000, 0.179000), (400.000000, 0.247000), (410.000000, 0.297000),
   (420.000000, 0.320000), (430.000000, 0.337000), (440.000000, 0.355000), (450.000000, 0.381000),
   (460.000000, 0.419000), (470.000000, 0.466000), (480.000000, 0.510000), (490.000000, 0.546000),
   (500.000000, 0.567000), (510.000000, 0.574000), (520.000000, 0.569000), (530.000000, 0.551000),
   (540.000000, 0.524000), (550.000000, 0.488000), (560.000000, 0.445000), (570.000000, 0.400000),
   (580.000000, 0.350000), (590.000000, 0.299000), (600.000000, 0.252000), (610.000000, 0.221000),
   (620.000000, 0.204000), (630.000000, 0.196000), (640.000000, 0.191000), (650.000000, 0.188000),
   (660.000000, 0.191000), (670.000000, 0.199000), (680.000000, 0.212000), (690.000000, 0.223000),
   (700.000000, 0.232000), (710.000000, 0.233000), (720.000000, 0.229000), (730.000000, 0.229000)]

/-- the constants of `SPECTRAL["orange"]`, colorchecker.rs:1450-1487 -/
def ccOrange : List (ℚ × ℚ) :=
  [(380.000000, 0.054000), (390.000000, 0.054000), (400.000000, 0.053000), (410.000000, 0.054000),
   (420.000000, 0.054000), (430.000000, 0.055000), (440.000000, 0.055000), (450.000000, 0.055000),
   (460.000000, 0.056000), (470.000000, 0.057000), (480.000000, 0.058000), (490.000000, 0.061000),
   (500.000000, 0.068000), (510.000000, 0.089000), (520.000000, 0.125000), (530.000000, 0.154000),
   (540.000000, 0.174000), (550.000000, 0.199000), (560.000000, 0.248000), (570.000000, 0.335000),
   (580.000000, 0.444000), (590.000000, 0.538000), (600.000000, 0.587000), (610.000000, 0.595000),
   (620.000000, 0.591000), (630.000000, 0.587000), (640.000000, 0.584000), (650.000000, 0.584000),
   (660.000000, 0.590000), (670.000000, 0.603000), (680.000000, 0.620000), (690.000000, 0.639000),
   (700.000000, 0.655000), (710.000000, 0.663000), (720.000000, 0.663000), (730.000000, 0.667000)]

/-- the constants of `SPECTRAL["purplish_blue"]`, colorchecker.rs:1488-1525 -/
def ccPurplishBlue : List (ℚ × ℚ) :=
  [(380.000000, 0.122000), (390.000000, 0.164000), (400.000000, 0.229000), (410.000000, 0.286000),
   (420.000000, 0.327000), (430.000000, 0.361000), (440.000000, 0.388000), (450.000000, 0.400000),
   (460.000000, 0.392000), (470.000000, 0.362000), (480.000000, 0.316000), (490.000000, 0.260000),
   (500.000000, 0.209000), (510.000000, 0.168000), (520.000000, 0.138000), (530.000000, 0.117000),
   (540.000000, 0.104000), (550.000000, 0.096000), (560.000000, 0.090000), (570.000000, 0.086000),
   (580.000000, 0.084000), (590.000000, 0.084000), (600.000000, 0.084000), (610.000000, 0.084000),
   (620.000000, 0.084000), (630.000000, 0.085000), (640.000000, 0.090000), (650.000000, 0.098000),
   (660.000000, 0.109000), (670.000000, 0.123000), (680.000000, 0.143000), (690.000000, 0.169000),
   (700.000000, 0.205000), (710.000000, 0.244000), (720.000000, 0.287000), (730.000000, 0.332000)]

/-- the constants of `SPECTRAL["moderate_red"]`, colorchecker.rs:1526-1563 -/
def ccModerateRed : List (ℚ × ℚ) :=
  [(380.000000, 0.096000), (390.000000, 0.115000), (400.000000, 0.131000), (410.000000, 0.135000),
   (420.000000, 0.133000), (430.000000, 0.132000), (440.000000, 0.130000), (450.000000, 0.128000),
   (460.000000, 0.125000), (470.000000, 0.120000), (480.000000, 0.115000), (490.000000, 0.110000),
   (500.000000, 0.105000), (510.000000, 0.100000), (520.000000, 0.095000), (530.000000, 0.093000),
   (540.000000, 0.092000), (550.000000, 0.093000), (560.000000, 0.096000), (570.000000, 0.108000),
   (580.000000, 0.156000), (590.000000, 0.265000), (600.000000, 0.399000), (610.000000, 0.500000),
   (620.000000, 0.556000), (630.000000, 0.579000), (640.000000, 0.588000), (650.000000, 0.591000),
   (660.000000, 0.593000), (670.000000, 0.594000), (680.000000, 0.598000), (690.000000, 0.602000),
   (700.000000, 0.607000), (710.000000, 0.609000), (720.000000, 0.609000), (730.000000, 0.610000)]

/-- the constants of `SPECTRAL["purple"]`, colorchecker.rs:1564-1601 -/
def ccPurple : List (ℚ × ℚ) :=
  [(380.000000, 0.092000), (390.000000, 0.116000), (400.000000, 0.146000), (410.000000, 0.169000),
   (420.000000, 0.178000), (430.000000, 0.173000), (440.000000, 0.158000), (450.000000, 0.139000),
   (460.000000, 0.119000), (470.000000, 0.101000), (480.000000, 0.087000), (490.000000, 0.075000),
   (500.000000, 0.066000), (510.000000, 0.060000), (520.000000, 0.056000), (530.000000, 0.053000),
   (540.000000, 0.051000), (550.000000, 0.051000), (560.000000, 0.052000), (570.000000, 0.052000),
   (580.000000, 0.051000), (590.000000, 0.052000), (600.000000, 0.058000), (610.000000, 0.073000),
   (620.000000, 0.096000), (630.000000, 0.119000), (640.000000, 0.141000), (650.000000, 0.166000),
   (660.000000, 0.194000), (670.000000, 0.227000), (680.000000, 0.265000), (690.000000, 0.309000),
   (700.000000, 0.355000), (710.000000, 0.396000), (720.000000, 0.436000), (730.000000, 0.478000)]

/-- the constants of `SPECTRAL["yellow_green"]`, colorchecker.rs:1602-1639 -/
def ccYellowGreen : List (ℚ × ℚ) :=
  [(380.000000, 0.061000), (390.000000, 0.061000), (400.000000, 0.062000), (410.000000, 0.063000),
   (420.000000, 0.064000), (430.000000, 0.066000), (440.000000, 0.069000), (450.000000, 0.075000),
   (460.000000, 0.085000), (470.000000, 0.105000), (480.000000, 0.139000), (490.000000, 0.192000),
   (500.000000, 0.271000), (510.000000, 0.376000), (520.000000, 0.476000), (530.000000, 0.531000),
   (540.000000, 0.549000), (550.000000, 0.546000), (560.000000, 0.528000), (570.000000, 0.504000),
   (580.000000, 0.471000), (590.000000, 0.428000), (600.000000, 0.381000), (610.000000, 0.347000),
   (620.000000, 0.327000), (630.000000, 0.318000), (640.000000, 0.312000), (650.000000, 0.310000),
   (660.000000, 0.314000), (670.000000, 0.327000), (680.000000, 0.345000), (690.000000, 0.363000),
   (700.000000, 0.376000), (710.000000, 0.381000), (720.000000, 0.378000), (730.000000, 0.379000)]

/-- the constants of `SPECTRAL["orange_yellow"]`, colorchecker.rs:1640-1677 -/
def ccOrangeYellow : List (ℚ × ℚ) :=
  [(380.000000, 0.063000), (390.000000, 0.063000), (400.000000, 0.063000), (410.000000, 0.064000),
   (420.000000, 0.064000), (430.000000, 0.064000), (440.000000, 0.065000), (450.000000, 0.066000),
   (460.000000, 0.067000), (470.000000, 0.068000), (480.000000, 0.071000), (490.000000, 0.076000),
   (500.000000, 0.087000), (510.000000, 0.125000), (520.000000, 0.206000), (530.000000, 0.305000),
   (540.000000, 0.383000), (550.000000, 0.431000), (560.000000, 0.469000), (570.000000, 0.518000),
   (580.000000, 0.568000), (590.000000, 0.607000), (600.000000, 0.628000), (610.000000, 0.637000),
   (620.000000, 0.640000), (630.000000, 0.642000), (640.000000, 0.645000), (650.000000, 0.648000),
   (660.000000, 0.651000), (670.000000, 0.653000), (680.000000, 0.657000), (690.000000, 0.664000),
   (700.000000, 0.673000), (710.000000, 0.680000), (720.000000, 0.684000), (730.000000, 0.688000)]

/-- the constants of `SPECTRAL["blue"]`, colorchecker.rs:1678-1715 -/
def ccBlue : List (ℚ × ℚ) :=
  [(380.000000, 0.066000), (390.000000, 0.079000), (400.000000, 0.102000), (410.000000, 0.146000),
   (420.000000, 0.200000), (430.000000, 0.244000), (440.000000, 0.282000), (450.000000, 0.309000),
   (460.000000, 0.308000), (470.000000, 0.278000), (480.000000, 0.231000), (490.000000, 0.178000),
   (500.000000, 0.130000), (510.000000, 0.094000), (520.000000, 0.070000), (530.000000, 0.054000),
   (540.000000, 0.046000), (550.000000, 0.042000), (560.000000, 0.039000), (570.000000, 0.038000),
   (580.000000, 0.038000), (590.000000, 0.038000), (600.000000, 0.038000), (610.000000, 0.039000),
   (620.000000, 0.039000), (630.000000, 0.040000), (640.000000, 0.041000), (650.000000, 0.042000),
   (660.000000, 0.044000), (670.000000, 0.045000), (680.000000, 0.046000), (690.000000, 0.046000),
   (700.000000, 0.048000), (710.000000, 0.052000), (720.000000, 0.057000), (730.000000, 0.065000)]

/-- the constants of `SPECTRAL["green"]`, colorchecker.rs:1716-1753 -/
def ccGreen : List (ℚ × ℚ) :=
  [(380.000000, 0.052000), (390.000000, 0.053000), (400.000000, 0.054000), (410.000000, 0.055000),
   (420.000000, 0.057000), (430.000000, 0.059000), (440.000000, 0.061000), (450.000000, 0.066000),
   (460.000000, 0.075000), (470.000000, 0.093000), (480.000000, 0.125000), (490.000000, 0.178000),
   (500.000000, 0.246000), (510.000000, 0.307000), (520.000000, 0.337000), (530.000000, 0.334000),
   (540.000000, 0.317000), (550.000000, 0.293000), (560.000000, 0.262000), (570.000000, 0.230000),
   (580.000000, 0.198000), (590.000000, 0.165000), (600.000000, 0.135000), (610.000000, 0.115000),
   (620.000000, 0.104000), (630.000000, 0.098000), (640.000000, 0.094000), (650.000000, 0.092000),
   (660.000000, 0.093000), (670.000000, 0.097000), (680.000000, 0.102000), (690.000000, 0.108000),
   (700.000000, 0.113000), (710.000000, 0.115000), (720.000000, 0.114000), (730.000000, 0.114000)]

/-- the constants of `SPECTRAL["red"]`, colorchecker.rs:1754-1791 -/
def ccRed : List (ℚ × ℚ) :=
  [(380.000000, 0.050000), (390.000000, 0.049000), (400.000000, 0.048000), (410.000000, 0.047000),
   (420.000000, 0.047000), (430.000000, 0.047000), (440.000000, 0.047000), (450.000000, 0.047000),
   (460.000000, 0.046000), (470.000000, 0.045000), (480.000000, 0.044000), (490.000000, 0.044000),
   (500.000000, 0.045000), (510.000000, 0.046000), (520.000000, 0.047000), (530.000000, 0.048000),
   (540.000000, 0.049000), (550.000000, 0.050000), (560.000000, 0.054000), (570.000000, 0.060000),
   (580.000000, 0.072000), (590.000000, 0.104000), (600.000000, 0.178000), (610.000000, 0.312000),
   (620.000000, 0.467000), (630.000000, 0.581000), (640.000000, 0.644000), (650.000000, 0.675000),
   (660.000000, 0.690000), (670.000000, 0.698000), (680.000000, 0.706000), (690.000000, 0.715000),
   (700.000000, 0.724000), (710.000000, 0.730000), (720.000000, 0.734000), (730.000000, 0.738000)]

/-- the constants of `SPECTRAL["yellow"]`, colorchecker.rs:1792-1829 -/
def ccYellow : List (ℚ × ℚ) :=
  [(380.000000, 0.058000), (390.000000, 0.054000), (400.000000, 0.052000), (410.000000, 0.052000),
   (420.000000, 0.053000), (430.000000, 0.054000), (440.000000, 0.056000), (450.000000, 0.059000),
   (460.000000, 0.067000), (470.000000, 0.081000), (480.000000, 0.107000), (490.000000, 0.152000),
   (500.000000, 0.225000), (510.000000, 0.336000), (520.000000, 0.462000), (530.000000, 0.559000),
   (540.000000, 0.616000), (550.000000, 0.650000), (560.000000, 0.672000), (570.000000, 0.694000),
   (580.000000, 0.710000), (590.000000, 0.723000), (600.000000, 0.731000), (610.000000, 0.739000),
   (620.000000, 0.746000), (630.000000, 0.752000), (640.000000, 0.758000), (650.000000, 0.764000),
   (660.000000, 0.769000), (670.000000, 0.771000), (680.000000, 0.776000), (690.000000, 0.782000),
   (700.000000, 0.790000), (710.000000, 0.796000), (720.000000, 0.799000), (730.000000, 0.804000)]

/-- the constants of `SPECTRAL["magenta"]`, colorchecker.rs:1830-1867 -/
def ccMagenta : List (ℚ × ℚ) :=
  [(380.000000, 0.145000), (390.000000, 0.195000), (400.000000, 0.283000), (410.000000, 0.346000),
   (420.000000, 0.362000), (430.000000, 0.354000), (440.000000, 0.334000), (450.000000, 0.306000),
   (460.000000, 0.276000), (470.000000, 0.248000), (480.000000, 0.218000), (490.000000, 0.190000),
   (500.000000, 0.168000), (510.000000, 0.149000), (520.000000, 0.127000), (530.000000, 0.107000),
   (540.000000, 0.100000), (550.000000, 0.102000), (560.000000, 0.104000), (570.000000, 0.109000),
   (580.000000, 0.137000), (590.000000, 0.200000), (600.000000, 0.290000), (610.000000, 0.400000),
   (620.000000, 0.516000), (630.000000, 0.615000), (640.000000, 0.687000), (650.000000, 0.732000),
   (660.000000, 0.760000), (670.000000, 0.774000), (680.000000, 0.783000), (690.000000, 0.793000),
   (700.000000, 0.803000), (710.000000, 0.812000), (720.000000, 0.817000), (730.000000, 0.825000)]

/-- the constants of `SPECTRAL["cyan"]`, colorchecker.rs:1868-1905 -/
def ccCyan : List (ℚ × ℚ) :=
  [(380.000000, 0.108000), (390.000000, 0.141000), (400.000000, 0.192000), (410.000000, 0.236000),
   (420.000000, 0.261000), (430.000000, 0.286000), (440.000000, 0.317000), (450.000000, 0.353000),
   (460.000000, 0.390000), (470.000000, 0.426000), (480.000000, 0.446000), (490.000000, 0.444000),
   (500.000000, 0.423000), (510.000000, 0.385000), (520.000000, 0.337000), (530.000000, 0.283000),
   (540.000000, 0.231000), (550.000000, 0.185000), (560.000000, 0.146000), (570.000000, 0.118000),
   (580.000000, 0.101000), (590.000000, 0.090000), (600.000000, 0.082000), (610.000000, 0.076000),
   (620.000000, 0.074000), (630.000000, 0.073000), (640.000000, 0.073000), (650.000000, 0.074000),
   (660.000000, 0.076000), (670.000000, 0.077000), (680.000000, 0.076000), (690.000000, 0.075000),
   (700.000000, 0.073000), (710.000000, 0.072000), (720.000000, 0.074000), (730.000000, 0.079000)]

/-- the constants of `SPECTRAL["white_95"]`, colorchecker.rs:1906-1943 -/
def ccWhite95 : List (ℚ × ℚ) :=
  [(380.000000, 0.189000), (390.000000, 0.255000), (400.000000, 0.423000), (410.000000, 0.660000),
   (420.000000, 0.811000), (430.000000, 0.862000), (440.000000, 0.877000), (450.000000, 0.884000),
   (460.000000, 0.891000), (470.000000, 0.896000), (480.000000, 0.899000), (490.000000, 0.904000),
   (500.000000, 0.907000), (510.000000, 0.909000), (520.000000, 0.911000), (530.000000, 0.910000),
   (540.000000, 0.911000), (550.000000, 0.914000), (560.000000, 0.913000), (570.000000, 0.916000),
   (580.000000, 0.915000), (590.000000, 0.916000), (600.000000, 0.914000), (610.000000, 0.915000),
   (620.000000, 0.918000), (630.000000, 0.919000), (640.000000, 0.921000), (650.000000, 0.923000),
   (660.000000, 0.924000), (670.000000, 0.922000), (680.000000, 0.922000), (690.000000, 0.925000),
   (700.000000, 0.927000), (710.000000, 0.930000), (720.000000, 0.930000), (730.000000, 0.933000)]

/-- the constants of `SPECTRAL["neutral_80"]`, colorchecker.rs:1944-1981 -/
def ccNeutral80 : List (ℚ × ℚ) :=
  [(380.000000, 0.171000), (390.000000, 0.232000), (400.000000, 0.365000), (410.000000, 0.507000),
   (420.000000, 0.567000), (430.000000, 0.583000), (440.000000, 0.588000), (450.000000, 0.590000),
   (460.000000, 0.591000), (470.000000, 0.590000), (480.000000, 0.588000), (490.000000, 0.588000),
   (500.000000, 0.589000), (510.000000, 0.589000), (520.000000, 0.591000), (530.000000, 0.590000),
   (540.000000, 0.590000), (550.000000, 0.590000), (560.000000, 0.589000), (570.000000, 0.591000),
   (580.000000, 0.590000), (590.000000, 0.590000), (600.000000, 0.587000), (610.000000, 0.585000),
   (620.000000, 0.583000), (630.000000, 0.580000), (640.000000, 0.578000), (650.000000, 0.576000),
   (660.000000, 0.574000), (670.000000, 0.572000), (680.000000, 0.571000), (690.000000, 0.569000),
   (700.000000, 0.568000), (710.000000, 0.568000), (720.000000, 0.566000), (730.000000, 0.566000)]

/-- the constants of `SPECTRAL["neutral_65"]`, colorchecker.rs:1982-2019 -/
def ccNeutral65 : List (ℚ × ℚ) :=
  [(380.000000, 0.144000), (390.000000, 0.192000), (400.000000, 0.272000), (410.000000, 0.331000),
   (420.000000, 0.350000), (430.000000, 0.357000), (440.000000, 0.361000), (450.000000, 0.363000),
   (460.000000, 0.363000), (470.000000, 0.361000), (480.000000, 0.359000), (490.000000, 0.358000),
   (500.000000, 0.358000), (510.000000, 0.359000), (520.000000, 0.360000), (530.000000, 0.360000),
   (540.000000, 0.361000), (550.000000, 0.361000), (560.000000, 0.360000), (570.000000, 0.362000),
   (580.000000, 0.362000), (590.000000, 0.361000), (600.000000, 0.359000), (610.000000, 0.358000),
   (620.000000, 0.355000), (630.000000, 0.352000), (640.000000, 0.350000), (650.000000, 0.348000),
   (660.000000, 0.345000), (670.000000, 0.343000), (680.000000, 0.340000), (690.000000, 0.338000),
   (700.000000, 0.335000), (710.000000, 0.334000), (720.000000, 0.332000), (730.000000, 0.331000)]

/-- the constants of `SPECTRAL["neutral_50"]`, colorchecker.rs:2020-2057 -/
def ccNeutral50 : List (ℚ × ℚ) :=
  [(380.000000, 0.105000), (390.000000, 0.131000), (400.000000, 0.163000), (410.000000, 0.180000),
   (420.000000, 0.186000), (430.000000, 0.190000), (440.000000, 0.193000), (450.000000, 0.194000),
   (460.000000, 0.194000), (470.000000, 0.192000), (480.000000, 0.191000), (490.000000, 0.191000),
   (500.000000, 0.191000), (510.000000, 0.192000), (520.000000, 0.192000), (530.000000, 0.192000),
   (540.000000, 0.192000), (550.000000, 0.192000), (560.000000, 0.192000), (570.000000, 0.193000),
   (580.000000, 0.192000), (590.000000, 0.192000), (600.000000, 0.191000), (610.000000, 0.189000),
   (620.000000, 0.188000), (630.000000, 0.186000), (640.000000, 0.184000), (650.000000, 0.182000),
   (660.000000, 0.181000), (670.000000, 0.179000), (680.000000, 0.178000), (690.000000, 0.176000),
   (700.000000, 0.174000), (710.000000, 0.173000), (720.000000, 0.172000), (730.000000, 0.171000)]

/-- the constants of `SPECTRAL["neutral_35"]`, colorchecker.rs:2058-2095 -/
def ccNeutral35 : List (ℚ × ℚ) :=
  [(380.000000, 0.068000), (390.000000, 0.077000), (400.000000, 0.084000), (410.000000, 0.087000),
   (420.000000, 0.089000), (430.000000, 0.090000), (440.000000, 0.092000), (450.000000, 0.092000),
   (460.000000, 0.091000), (470.000000, 0.090000), (480.000000, 0.090000), (490.000000, 0.090000),
   (500.000000, 0.090000), (510.000000, 0.090000), (520.000000, 0.090000), (530.000000, 0.090000),
   (540.000000, 0.090000), (550.000000, 0.090000), (560.000000, 0.090000), (570.000000, 0.090000),
   (580.000000, 0.090000), (590.000000, 0.089000), (600.000000, 0.089000), (610.000000, 0.088000),
   (620.000000, 0.087000), (630.000000, 0.086000), (640.000000, 0.086000), (650.000000, 0.085000),
   (660.000000, 0.084000), (670.000000, 0.084000), (680.000000, 0.083000), (690.000000, 0.083000),
   (700.000000, 0.082000), (710.000000, 0.081000), (720.000000, 0.081000), (730.000000, 0.081000)]

/-- the constants of `SPECTRAL["black_20"]`, colorchecker.rs:2096-2133 -/
def ccBlack20 : List (ℚ × ℚ) :=
  [(380.000000, 0.031000), (390.000000, 0.032000), (400.000000, 0.032000), (410.000000, 0.033000),
   (420.000000, 0.033000), (430.000000, 0.033000), (440.000000, 0.033000), (450.000000, 0.033000),
   (460.000000, 0.032000), (470.000000, 0.032000), (480.000000, 0.032000), (490.000000, 0.032000),
   (500.000000, 0.032000), (510.000000, 0.032000), (520.000000, 0.032000), (530.000000, 0.032000),
   (540.000000, 0.032000), (550.000000, 0.032000), (560.000000, 0.032000), (570.000000, 0.032000),
   (580.000000, 0.032000), (590.000000, 0.032000), (600.000000, 0.032000), (610.000000, 0.032000),
   (620.000000, 0.032000), (630.000000, 0.032000), (640.000000, 0.032000), (650.000000, 0.032000),
   (660.000000, 0.032000), (670.000000, 0.032000), (680.000000, 0.032000), (690.000000, 0.032000),
   (700.000000, 0.032000), (710.000000, 0.032000), (720.000000, 0.032000), (730.000000, 0.033000)]

/-- `SPECTRAL`, colorchecker.rs:1221-2134; the `HashMap` is modelled as the list of its entries in source
order (all keys are different). -/
def checker : List (String × List (ℚ × ℚ)) :=
  [("dark_skin", ccDarkSkin),
   ("light_skin", ccLightSkin),
   ("blue_sky", ccBlueSky),
   ("foliage", ccFoliage),
   ("blue_flower", ccBlueFlower),
   ("bluish_green", ccBluishGreen),
   ("orange", ccOrange),
   ("purplish_blue", ccPurplishBlue),
   ("moderate_red", ccModerateRed),
   ("purple", ccPurple),
   ("yellow_green", ccYellowGreen),
   ("orange_yellow", ccOrangeYellow),
   ("blue", ccBlue),
   ("green", ccGreen),
   ("red", ccRed),
   ("yellow", ccYellow),
   ("magenta", ccMagenta),
   ("cyan", ccCyan),
   ("white_95", ccWhite95),
   ("neutral_80", ccNeutral80),
   ("neutral_65", ccNeutral65),
   ("neutral_50", ccNeutral50),
   ("neutral_35", ccNeutral35),
   ("black_20", ccBlack20)]

variable {T : Type} [Add T] [Sub T] [Mul T] [Div T] [Neg T] [Flt T]

/-- the `vspd!` macro, macros.rs:1-15 -/
def vspd (t : List (ℚ × ℚ)) : Res (VSPD T) := VSPD.new (t.map fun p => ⟨Flt.lit p.1, Flt.lit p.2⟩)

/-- `CIE_1931_2_DEGREE`, cmf.rs:36-1456 -/
def cie1931 : Res (CMF T) := do
  let x ← vspd xBar
  let y ← vspd yBar
  let z ← vspd zBar
  .ok ⟨x, y, z⟩

end CS.Spectra
