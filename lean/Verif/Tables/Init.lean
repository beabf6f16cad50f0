import Mathlib.Data.Nat.Notation

/-!
# The function table

Literal data transcribed by a script from `skel/simint/ostei/ostei_init.c` and
`skel/simint/ostei/ostei_deriv1_init.c`: one list per `#if SIMINT_OSTEI_MAXAM >= L` (or
`SIMINT_OSTEI_DERIV1_MAXAM`), one pair per assignment
`simint_osteifunc_array[D][A][B][C][E] = ostei_w_x_y_z` (or `ostei_deriv1_w_x_y_z`).  The first number has
the hexadecimal digits `DABCE`, the second the ASCII codes of the four letters.  The script checks the text
around the numbers and letters, and that there is nothing else in the functions.
-/

namespace Simint.Tables

def init0_0 : List (ℕ × ℕ) := [
  (0x00000, 0x73737373)]

def init0_1 : List (ℕ × ℕ) := [
  (0x00001, 0x73737370), (0x00010, 0x73737073), (0x00011, 0x73737070), (0x00100, 0x73707373), (0x00101, 0x73707370),
  (0x00110, 0x73707073), (0x00111, 0x73707070), (0x01000, 0x70737373), (0x01001, 0x70737370), (0x01010, 0x70737073),
  (0x01011, 0x70737070), (0x01100, 0x70707373), (0x01101, 0x70707370), (0x01110, 0x70707073), (0x01111, 0x70707070)]

def init0_2 : List (ℕ × ℕ) := [
  (0x00002, 0x73737364), (0x00012, 0x73737064), (0x00020, 0x73736473), (0x00021, 0x73736470), (0x00022, 0x73736464),
  (0x00102, 0x73707364), (0x00112, 0x73707064), (0x00120, 0x73706473), (0x00121, 0x73706470), (0x00122, 0x73706464),
  (0x00200, 0x73647373), (0x00201, 0x73647370), (0x00202, 0x73647364), (0x00210, 0x73647073), (0x00211, 0x73647070),
  (0x00212, 0x73647064), (0x00220, 0x73646473), (0x00221, 0x73646470), (0x00222, 0x73646464), (0x01002, 0x70737364),
  (0x01012, 0x70737064), (0x01020, 0x70736473), (0x01021, 0x70736470), (0x01022, 0x70736464), (0x01102, 0x70707364),
  (0x01112, 0x70707064), (0x01120, 0x70706473), (0x01121, 0x70706470), (0x01122, 0x70706464), (0x01200, 0x70647373),
  (0x01201, 0x70647370), (0x01202, 0x70647364), (0x01210, 0x70647073), (0x01211, 0x70647070), (0x01212, 0x70647064),
  (0x01220, 0x70646473), (0x01221, 0x70646470), (0x01222, 0x70646464), (0x02000, 0x64737373), (0x02001, 0x64737370),
  (0x02002, 0x64737364), (0x02010, 0x64737073), (0x02011, 0x64737070), (0x02012, 0x64737064), (0x02020, 0x64736473),
  (0x02021, 0x64736470), (0x02022, 0x64736464), (0x02100, 0x64707373), (0x02101, 0x64707370), (0x02102, 0x64707364),
  (0x02110, 0x64707073), (0x02111, 0x64707070), (0x02112, 0x64707064), (0x02120, 0x64706473), (0x02121, 0x64706470),
  (0x02122, 0x64706464), (0x02200, 0x64647373), (0x02201, 0x64647370), (0x02202, 0x64647364), (0x02210, 0x64647073),
  (0x02211, 0x64647070), (0x02212, 0x64647064), (0x02220, 0x64646473), (0x02221, 0x64646470), (0x02222, 0x64646464)]

def init0_3 : List (ℕ × ℕ) := [
  (0x00003, 0x73737366), (0x00013, 0x73737066), (0x00023, 0x73736466), (0x00030, 0x73736673), (0x00031, 0x73736670),
  (0x00032, 0x73736664), (0x00033, 0x73736666), (0x00103, 0x73707366), (0x00113, 0x73707066), (0x00123, 0x73706466),
  (0x00130, 0x73706673), (0x00131, 0x73706670), (0x00132, 0x73706664), (0x00133, 0x73706666), (0x00203, 0x73647366),
  (0x00213, 0x73647066), (0x00223, 0x73646466), (0x00230, 0x73646673), (0x00231, 0x73646670), (0x00232, 0x73646664),
  (0x00233, 0x73646666), (0x00300, 0x73667373), (0x00301, 0x73667370), (0x00302, 0x73667364), (0x00303, 0x73667366),
  (0x00310, 0x73667073), (0x00311, 0x73667070), (0x00312, 0x73667064), (0x00313, 0x73667066), (0x00320, 0x73666473),
  (0x00321, 0x73666470), (0x00322, 0x73666464), (0x00323, 0x73666466), (0x00330, 0x73666673), (0x00331, 0x73666670),
  (0x00332, 0x73666664), (0x00333, 0x73666666), (0x01003, 0x70737366), (0x01013, 0x70737066), (0x01023, 0x70736466),
  (0x01030, 0x70736673), (0x01031, 0x70736670), (0x01032, 0x70736664), (0x01033, 0x70736666), (0x01103, 0x70707366),
  (0x01113, 0x70707066), (0x01123, 0x70706466), (0x01130, 0x70706673), (0x01131, 0x70706670), (0x01132, 0x70706664),
  (0x01133, 0x70706666), (0x01203, 0x70647366), (0x01213, 0x70647066), (0x01223, 0x70646466), (0x01230, 0x70646673),
  (0x01231, 0x70646670), (0x01232, 0x70646664), (0x01233, 0x70646666), (0x01300, 0x70667373), (0x01301, 0x70667370),
  (0x01302, 0x70667364), (0x01303, 0x70667366), (0x01310, 0x70667073), (0x01311, 0x70667070), (0x01312, 0x70667064),
  (0x01313, 0x70667066), (0x01320, 0x70666473), (0x01321, 0x70666470), (0x01322, 0x70666464), (0x01323, 0x70666466),
  (0x01330, 0x70666673), (0x01331, 0x70666670), (0x01332, 0x70666664), (0x01333, 0x70666666), (0x02003, 0x64737366),
  (0x02013, 0x64737066), (0x02023, 0x64736466), (0x02030, 0x64736673), (0x02031, 0x64736670), (0x02032, 0x64736664),
  (0x02033, 0x64736666), (0x02103, 0x64707366), (0x02113, 0x64707066), (0x02123, 0x64706466), (0x02130, 0x64706673),
  (0x02131, 0x64706670), (0x02132, 0x64706664), (0x02133, 0x64706666), (0x02203, 0x64647366), (0x02213, 0x64647066),
  (0x02223, 0x64646466), (0x02230, 0x64646673), (0x02231, 0x64646670), (0x02232, 0x64646664), (0x02233, 0x64646666),
  (0x02300, 0x64667373), (0x02301, 0x64667370), (0x02302, 0x64667364), (0x02303, 0x64667366), (0x02310, 0x64667073),
  (0x02311, 0x64667070), (0x02312, 0x64667064), (0x02313, 0x64667066), (0x02320, 0x64666473), (0x02321, 0x64666470),
  (0x02322, 0x64666464), (0x02323, 0x64666466), (0x02330, 0x64666673), (0x02331, 0x64666670), (0x02332, 0x64666664),
  (0x02333, 0x64666666), (0x03000, 0x66737373), (0x03001, 0x66737370), (0x03002, 0x66737364), (0x03003, 0x66737366),
  (0x03010, 0x66737073), (0x03011, 0x66737070), (0x03012, 0x66737064), (0x03013, 0x66737066), (0x03020, 0x66736473),
  (0x03021, 0x66736470), (0x03022, 0x66736464), (0x03023, 0x66736466), (0x03030, 0x66736673), (0x03031, 0x66736670),
  (0x03032, 0x66736664), (0x03033, 0x66736666), (0x03100, 0x66707373), (0x03101, 0x66707370), (0x03102, 0x66707364),
  (0x03103, 0x66707366), (0x03110, 0x66707073), (0x03111, 0x66707070), (0x03112, 0x66707064), (0x03113, 0x66707066),
  (0x03120, 0x66706473), (0x03121, 0x66706470), (0x03122, 0x66706464), (0x03123, 0x66706466), (0x03130, 0x66706673),
  (0x03131, 0x66706670), (0x03132, 0x66706664), (0x03133, 0x66706666), (0x03200, 0x66647373), (0x03201, 0x66647370),
  (0x03202, 0x66647364), (0x03203, 0x66647366), (0x03210, 0x66647073), (0x03211, 0x66647070), (0x03212, 0x66647064),
  (0x03213, 0x66647066), (0x03220, 0x66646473), (0x03221, 0x66646470), (0x03222, 0x66646464), (0x03223, 0x66646466),
  (0x03230, 0x66646673), (0x03231, 0x66646670), (0x03232, 0x66646664), (0x03233, 0x66646666), (0x03300, 0x66667373),
  (0x03301, 0x66667370), (0x03302, 0x66667364), (0x03303, 0x66667366), (0x03310, 0x66667073), (0x03311, 0x66667070),
  (0x03312, 0x66667064), (0x03313, 0x66667066), (0x03320, 0x66666473), (0x03321, 0x66666470), (0x03322, 0x66666464),
  (0x03323, 0x66666466), (0x03330, 0x66666673), (0x03331, 0x66666670), (0x03332, 0x66666664), (0x03333, 0x66666666)]

def init0_4_0 : List (ℕ × ℕ) := [
  (0x00004, 0x73737367), (0x00014, 0x73737067), (0x00024, 0x73736467), (0x00034, 0x73736667), (0x00040, 0x73736773),
  (0x00041, 0x73736770), (0x00042, 0x73736764), (0x00043, 0x73736766), (0x00044, 0x73736767), (0x00104, 0x73707367),
  (0x00114, 0x73707067), (0x00124, 0x73706467), (0x00134, 0x73706667), (0x00140, 0x73706773), (0x00141, 0x73706770),
  (0x00142, 0x73706764), (0x00143, 0x73706766), (0x00144, 0x73706767), (0x00204, 0x73647367), (0x00214, 0x73647067),
  (0x00224, 0x73646467), (0x00234, 0x73646667), (0x00240, 0x73646773), (0x00241, 0x73646770), (0x00242, 0x73646764),
  (0x00243, 0x73646766), (0x00244, 0x73646767), (0x00304, 0x73667367), (0x00314, 0x73667067), (0x00324, 0x73666467),
  (0x00334, 0x73666667), (0x00340, 0x73666773), (0x00341, 0x73666770), (0x00342, 0x73666764), (0x00343, 0x73666766),
  (0x00344, 0x73666767), (0x00400, 0x73677373), (0x00401, 0x73677370), (0x00402, 0x73677364), (0x00403, 0x73677366),
  (0x00404, 0x73677367), (0x00410, 0x73677073), (0x00411, 0x73677070), (0x00412, 0x73677064), (0x00413, 0x73677066),
  (0x00414, 0x73677067), (0x00420, 0x73676473), (0x00421, 0x73676470), (0x00422, 0x73676464), (0x00423, 0x73676466),
  (0x00424, 0x73676467), (0x00430, 0x73676673), (0x00431, 0x73676670), (0x00432, 0x73676664), (0x00433, 0x73676666),
  (0x00434, 0x73676667), (0x00440, 0x73676773), (0x00441, 0x73676770), (0x00442, 0x73676764), (0x00443, 0x73676766),
  (0x00444, 0x73676767), (0x01004, 0x70737367), (0x01014, 0x70737067), (0x01024, 0x70736467), (0x01034, 0x70736667),
  (0x01040, 0x70736773), (0x01041, 0x70736770), (0x01042, 0x70736764), (0x01043, 0x70736766), (0x01044, 0x70736767),
  (0x01104, 0x70707367), (0x01114, 0x70707067), (0x01124, 0x70706467), (0x01134, 0x70706667), (0x01140, 0x70706773),
  (0x01141, 0x70706770), (0x01142, 0x70706764), (0x01143, 0x70706766), (0x01144, 0x70706767), (0x01204, 0x70647367),
  (0x01214, 0x70647067), (0x01224, 0x70646467), (0x01234, 0x70646667), (0x01240, 0x70646773), (0x01241, 0x70646770),
  (0x01242, 0x70646764), (0x01243, 0x70646766), (0x01244, 0x70646767), (0x01304, 0x70667367), (0x01314, 0x70667067),
  (0x01324, 0x70666467), (0x01334, 0x70666667), (0x01340, 0x70666773), (0x01341, 0x70666770), (0x01342, 0x70666764),
  (0x01343, 0x70666766), (0x01344, 0x70666767), (0x01400, 0x70677373), (0x01401, 0x70677370), (0x01402, 0x70677364),
  (0x01403, 0x70677366), (0x01404, 0x70677367), (0x01410, 0x70677073), (0x01411, 0x70677070), (0x01412, 0x70677064),
  (0x01413, 0x70677066), (0x01414, 0x70677067), (0x01420, 0x70676473), (0x01421, 0x70676470), (0x01422, 0x70676464),
  (0x01423, 0x70676466), (0x01424, 0x70676467), (0x01430, 0x70676673), (0x01431, 0x70676670), (0x01432, 0x70676664),
  (0x01433, 0x70676666), (0x01434, 0x70676667), (0x01440, 0x70676773), (0x01441, 0x70676770), (0x01442, 0x70676764),
  (0x01443, 0x70676766), (0x01444, 0x70676767), (0x02004, 0x64737367), (0x02014, 0x64737067), (0x02024, 0x64736467),
  (0x02034, 0x64736667), (0x02040, 0x64736773), (0x02041, 0x64736770), (0x02042, 0x64736764), (0x02043, 0x64736766),
  (0x02044, 0x64736767), (0x02104, 0x64707367), (0x02114, 0x64707067), (0x02124, 0x64706467), (0x02134, 0x64706667),
  (0x02140, 0x64706773), (0x02141, 0x64706770), (0x02142, 0x64706764), (0x02143, 0x64706766), (0x02144, 0x64706767),
  (0x02204, 0x64647367), (0x02214, 0x64647067), (0x02224, 0x64646467), (0x02234, 0x64646667), (0x02240, 0x64646773),
  (0x02241, 0x64646770), (0x02242, 0x64646764), (0x02243, 0x64646766), (0x02244, 0x64646767), (0x02304, 0x64667367),
  (0x02314, 0x64667067), (0x02324, 0x64666467), (0x02334, 0x64666667), (0x02340, 0x64666773), (0x02341, 0x64666770),
  (0x02342, 0x64666764), (0x02343, 0x64666766), (0x02344, 0x64666767), (0x02400, 0x64677373), (0x02401, 0x64677370),
  (0x02402, 0x64677364), (0x02403, 0x64677366), (0x02404, 0x64677367), (0x02410, 0x64677073), (0x02411, 0x64677070),
  (0x02412, 0x64677064), (0x02413, 0x64677066), (0x02414, 0x64677067), (0x02420, 0x64676473), (0x02421, 0x64676470),
  (0x02422, 0x64676464), (0x02423, 0x64676466), (0x02424, 0x64676467), (0x02430, 0x64676673), (0x02431, 0x64676670),
  (0x02432, 0x64676664), (0x02433, 0x64676666), (0x02434, 0x64676667), (0x02440, 0x64676773), (0x02441, 0x64676770),
  (0x02442, 0x64676764), (0x02443, 0x64676766), (0x02444, 0x64676767), (0x03004, 0x66737367), (0x03014, 0x66737067),
  (0x03024, 0x66736467), (0x03034, 0x66736667), (0x03040, 0x66736773), (0x03041, 0x66736770), (0x03042, 0x66736764),
  (0x03043, 0x66736766), (0x03044, 0x66736767), (0x03104, 0x66707367), (0x03114, 0x66707067), (0x03124, 0x66706467),
  (0x03134, 0x66706667), (0x03140, 0x66706773), (0x03141, 0x66706770), (0x03142, 0x66706764), (0x03143, 0x66706766),
  (0x03144, 0x66706767), (0x03204, 0x66647367), (0x03214, 0x66647067), (0x03224, 0x66646467), (0x03234, 0x66646667),
  (0x03240, 0x66646773), (0x03241, 0x66646770), (0x03242, 0x66646764), (0x03243, 0x66646766), (0x03244, 0x66646767),
  (0x03304, 0x66667367), (0x03314, 0x66667067), (0x03324, 0x66666467), (0x03334, 0x66666667), (0x03340, 0x66666773),
  (0x03341, 0x66666770), (0x03342, 0x66666764), (0x03343, 0x66666766), (0x03344, 0x66666767), (0x03400, 0x66677373),
  (0x03401, 0x66677370), (0x03402, 0x66677364), (0x03403, 0x66677366), (0x03404, 0x66677367), (0x03410, 0x66677073),
  (0x03411, 0x66677070), (0x03412, 0x66677064), (0x03413, 0x66677066), (0x03414, 0x66677067), (0x03420, 0x66676473),
  (0x03421, 0x66676470), (0x03422, 0x66676464), (0x03423, 0x66676466), (0x03424, 0x66676467), (0x03430, 0x66676673),
  (0x03431, 0x66676670), (0x03432, 0x66676664), (0x03433, 0x66676666), (0x03434, 0x66676667), (0x03440, 0x66676773),
  (0x03441, 0x66676770), (0x03442, 0x66676764), (0x03443, 0x66676766), (0x03444, 0x66676767), (0x04000, 0x67737373),
  (0x04001, 0x67737370), (0x04002, 0x67737364), (0x04003, 0x67737366), (0x04004, 0x67737367), (0x04010, 0x67737073),
  (0x04011, 0x67737070), (0x04012, 0x67737064), (0x04013, 0x67737066), (0x04014, 0x67737067), (0x04020, 0x67736473),
  (0x04021, 0x67736470), (0x04022, 0x67736464), (0x04023, 0x67736466), (0x04024, 0x67736467), (0x04030, 0x67736673),
  (0x04031, 0x67736670), (0x04032, 0x67736664), (0x04033, 0x67736666), (0x04034, 0x67736667), (0x04040, 0x67736773),
  (0x04041, 0x67736770), (0x04042, 0x67736764), (0x04043, 0x67736766), (0x04044, 0x67736767), (0x04100, 0x67707373),
  (0x04101, 0x67707370), (0x04102, 0x67707364), (0x04103, 0x67707366), (0x04104, 0x67707367), (0x04110, 0x67707073),
  (0x04111, 0x67707070), (0x04112, 0x67707064), (0x04113, 0x67707066), (0x04114, 0x67707067), (0x04120, 0x67706473),
  (0x04121, 0x67706470), (0x04122, 0x67706464), (0x04123, 0x67706466), (0x04124, 0x67706467), (0x04130, 0x67706673),
  (0x04131, 0x67706670), (0x04132, 0x67706664), (0x04133, 0x67706666), (0x04134, 0x67706667), (0x04140, 0x67706773),
  (0x04141, 0x67706770), (0x04142, 0x67706764), (0x04143, 0x67706766), (0x04144, 0x67706767), (0x04200, 0x67647373),
  (0x04201, 0x67647370), (0x04202, 0x67647364), (0x04203, 0x67647366), (0x04204, 0x67647367), (0x04210, 0x67647073),
  (0x04211, 0x67647070), (0x04212, 0x67647064), (0x04213, 0x67647066), (0x04214, 0x67647067), (0x04220, 0x67646473),
  (0x04221, 0x67646470), (0x04222, 0x67646464), (0x04223, 0x67646466), (0x04224, 0x67646467), (0x04230, 0x67646673),
  (0x04231, 0x67646670), (0x04232, 0x67646664), (0x04233, 0x67646666), (0x04234, 0x67646667), (0x04240, 0x67646773),
  (0x04241, 0x67646770), (0x04242, 0x67646764), (0x04243, 0x67646766), (0x04244, 0x67646767), (0x04300, 0x67667373),
  (0x04301, 0x67667370), (0x04302, 0x67667364), (0x04303, 0x67667366), (0x04304, 0x67667367), (0x04310, 0x67667073),
  (0x04311, 0x67667070), (0x04312, 0x67667064), (0x04313, 0x67667066), (0x04314, 0x67667067), (0x04320, 0x67666473),
  (0x04321, 0x67666470), (0x04322, 0x67666464), (0x04323, 0x67666466), (0x04324, 0x67666467), (0x04330, 0x67666673),
  (0x04331, 0x67666670), (0x04332, 0x67666664), (0x04333, 0x67666666), (0x04334, 0x67666667), (0x04340, 0x67666773),
  (0x04341, 0x67666770), (0x04342, 0x67666764), (0x04343, 0x67666766), (0x04344, 0x67666767), (0x04400, 0x67677373),
  (0x04401, 0x67677370), (0x04402, 0x67677364), (0x04403, 0x67677366), (0x04404, 0x67677367), (0x04410, 0x67677073)]

def init0_4_1 : List (ℕ × ℕ) := [
  (0x04411, 0x67677070), (0x04412, 0x67677064), (0x04413, 0x67677066), (0x04414, 0x67677067), (0x04420, 0x67676473),
  (0x04421, 0x67676470), (0x04422, 0x67676464), (0x04423, 0x67676466), (0x04424, 0x67676467), (0x04430, 0x67676673),
  (0x04431, 0x67676670), (0x04432, 0x67676664), (0x04433, 0x67676666), (0x04434, 0x67676667), (0x04440, 0x67676773),
  (0x04441, 0x67676770), (0x04442, 0x67676764), (0x04443, 0x67676766), (0x04444, 0x67676767)]

def init0_4 : List (ℕ × ℕ) :=
  init0_4_0 ++ init0_4_1

def init0_5_0 : List (ℕ × ℕ) := [
  (0x00005, 0x73737368), (0x00015, 0x73737068), (0x00025, 0x73736468), (0x00035, 0x73736668), (0x00045, 0x73736768),
  (0x00050, 0x73736873), (0x00051, 0x73736870), (0x00052, 0x73736864), (0x00053, 0x73736866), (0x00054, 0x73736867),
  (0x00055, 0x73736868), (0x00105, 0x73707368), (0x00115, 0x73707068), (0x00125, 0x73706468), (0x00135, 0x73706668),
  (0x00145, 0x73706768), (0x00150, 0x73706873), (0x00151, 0x73706870), (0x00152, 0x73706864), (0x00153, 0x73706866),
  (0x00154, 0x73706867), (0x00155, 0x73706868), (0x00205, 0x73647368), (0x00215, 0x73647068), (0x00225, 0x73646468),
  (0x00235, 0x73646668), (0x00245, 0x73646768), (0x00250, 0x73646873), (0x00251, 0x73646870), (0x00252, 0x73646864),
  (0x00253, 0x73646866), (0x00254, 0x73646867), (0x00255, 0x73646868), (0x00305, 0x73667368), (0x00315, 0x73667068),
  (0x00325, 0x73666468), (0x00335, 0x73666668), (0x00345, 0x73666768), (0x00350, 0x73666873), (0x00351, 0x73666870),
  (0x00352, 0x73666864), (0x00353, 0x73666866), (0x00354, 0x73666867), (0x00355, 0x73666868), (0x00405, 0x73677368),
  (0x00415, 0x73677068), (0x00425, 0x73676468), (0x00435, 0x73676668), (0x00445, 0x73676768), (0x00450, 0x73676873),
  (0x00451, 0x73676870), (0x00452, 0x73676864), (0x00453, 0x73676866), (0x00454, 0x73676867), (0x00455, 0x73676868),
  (0x00500, 0x73687373), (0x00501, 0x73687370), (0x00502, 0x73687364), (0x00503, 0x73687366), (0x00504, 0x73687367),
  (0x00505, 0x73687368), (0x00510, 0x73687073), (0x00511, 0x73687070), (0x00512, 0x73687064), (0x00513, 0x73687066),
  (0x00514, 0x73687067), (0x00515, 0x73687068), (0x00520, 0x73686473), (0x00521, 0x73686470), (0x00522, 0x73686464),
  (0x00523, 0x73686466), (0x00524, 0x73686467), (0x00525, 0x73686468), (0x00530, 0x73686673), (0x00531, 0x73686670),
  (0x00532, 0x73686664), (0x00533, 0x73686666), (0x00534, 0x73686667), (0x00535, 0x73686668), (0x00540, 0x73686773),
  (0x00541, 0x73686770), (0x00542, 0x73686764), (0x00543, 0x73686766), (0x00544, 0x73686767), (0x00545, 0x73686768),
  (0x00550, 0x73686873), (0x00551, 0x73686870), (0x00552, 0x73686864), (0x00553, 0x73686866), (0x00554, 0x73686867),
  (0x00555, 0x73686868), (0x01005, 0x70737368), (0x01015, 0x70737068), (0x01025, 0x70736468), (0x01035, 0x70736668),
  (0x01045, 0x70736768), (0x01050, 0x70736873), (0x01051, 0x70736870), (0x01052, 0x70736864), (0x01053, 0x70736866),
  (0x01054, 0x70736867), (0x01055, 0x70736868), (0x01105, 0x70707368), (0x01115, 0x70707068), (0x01125, 0x70706468),
  (0x01135, 0x70706668), (0x01145, 0x70706768), (0x01150, 0x70706873), (0x01151, 0x70706870), (0x01152, 0x70706864),
  (0x01153, 0x70706866), (0x01154, 0x70706867), (0x01155, 0x70706868), (0x01205, 0x70647368), (0x01215, 0x70647068),
  (0x01225, 0x70646468), (0x01235, 0x70646668), (0x01245, 0x70646768), (0x01250, 0x70646873), (0x01251, 0x70646870),
  (0x01252, 0x70646864), (0x01253, 0x70646866), (0x01254, 0x70646867), (0x01255, 0x70646868), (0x01305, 0x70667368),
  (0x01315, 0x70667068), (0x01325, 0x70666468), (0x01335, 0x70666668), (0x01345, 0x70666768), (0x01350, 0x70666873),
  (0x01351, 0x70666870), (0x01352, 0x70666864), (0x01353, 0x70666866), (0x01354, 0x70666867), (0x01355, 0x70666868),
  (0x01405, 0x70677368), (0x01415, 0x70677068), (0x01425, 0x70676468), (0x01435, 0x70676668), (0x01445, 0x70676768),
  (0x01450, 0x70676873), (0x01451, 0x70676870), (0x01452, 0x70676864), (0x01453, 0x70676866), (0x01454, 0x70676867),
  (0x01455, 0x70676868), (0x01500, 0x70687373), (0x01501, 0x70687370), (0x01502, 0x70687364), (0x01503, 0x70687366),
  (0x01504, 0x70687367), (0x01505, 0x70687368), (0x01510, 0x70687073), (0x01511, 0x70687070), (0x01512, 0x70687064),
  (0x01513, 0x70687066), (0x01514, 0x70687067), (0x01515, 0x70687068), (0x01520, 0x70686473), (0x01521, 0x70686470),
  (0x01522, 0x70686464), (0x01523, 0x70686466), (0x01524, 0x70686467), (0x01525, 0x70686468), (0x01530, 0x70686673),
  (0x01531, 0x70686670), (0x01532, 0x70686664), (0x01533, 0x70686666), (0x01534, 0x70686667), (0x01535, 0x70686668),
  (0x01540, 0x70686773), (0x01541, 0x70686770), (0x01542, 0x70686764), (0x01543, 0x70686766), (0x01544, 0x70686767),
  (0x01545, 0x70686768), (0x01550, 0x70686873), (0x01551, 0x70686870), (0x01552, 0x70686864), (0x01553, 0x70686866),
  (0x01554, 0x70686867), (0x01555, 0x70686868), (0x02005, 0x64737368), (0x02015, 0x64737068), (0x02025, 0x64736468),
  (0x02035, 0x64736668), (0x02045, 0x64736768), (0x02050, 0x64736873), (0x02051, 0x64736870), (0x02052, 0x64736864),
  (0x02053, 0x64736866), (0x02054, 0x64736867), (0x02055, 0x64736868), (0x02105, 0x64707368), (0x02115, 0x64707068),
  (0x02125, 0x64706468), (0x02135, 0x64706668), (0x02145, 0x64706768), (0x02150, 0x64706873), (0x02151, 0x64706870),
  (0x02152, 0x64706864), (0x02153, 0x64706866), (0x02154, 0x64706867), (0x02155, 0x64706868), (0x02205, 0x64647368),
  (0x02215, 0x64647068), (0x02225, 0x64646468), (0x02235, 0x64646668), (0x02245, 0x64646768), (0x02250, 0x64646873),
  (0x02251, 0x64646870), (0x02252, 0x64646864), (0x02253, 0x64646866), (0x02254, 0x64646867), (0x02255, 0x64646868),
  (0x02305, 0x64667368), (0x02315, 0x64667068), (0x02325, 0x64666468), (0x02335, 0x64666668), (0x02345, 0x64666768),
  (0x02350, 0x64666873), (0x02351, 0x64666870), (0x02352, 0x64666864), (0x02353, 0x64666866), (0x02354, 0x64666867),
  (0x02355, 0x64666868), (0x02405, 0x64677368), (0x02415, 0x64677068), (0x02425, 0x64676468), (0x02435, 0x64676668),
  (0x02445, 0x64676768), (0x02450, 0x64676873), (0x02451, 0x64676870), (0x02452, 0x64676864), (0x02453, 0x64676866),
  (0x02454, 0x64676867), (0x02455, 0x64676868), (0x02500, 0x64687373), (0x02501, 0x64687370), (0x02502, 0x64687364),
  (0x02503, 0x64687366), (0x02504, 0x64687367), (0x02505, 0x64687368), (0x02510, 0x64687073), (0x02511, 0x64687070),
  (0x02512, 0x64687064), (0x02513, 0x64687066), (0x02514, 0x64687067), (0x02515, 0x64687068), (0x02520, 0x64686473),
  (0x02521, 0x64686470), (0x02522, 0x64686464), (0x02523, 0x64686466), (0x02524, 0x64686467), (0x02525, 0x64686468),
  (0x02530, 0x64686673), (0x02531, 0x64686670), (0x02532, 0x64686664), (0x02533, 0x64686666), (0x02534, 0x64686667),
  (0x02535, 0x64686668), (0x02540, 0x64686773), (0x02541, 0x64686770), (0x02542, 0x64686764), (0x02543, 0x64686766),
  (0x02544, 0x64686767), (0x02545, 0x64686768), (0x02550, 0x64686873), (0x02551, 0x64686870), (0x02552, 0x64686864),
  (0x02553, 0x64686866), (0x02554, 0x64686867), (0x02555, 0x64686868), (0x03005, 0x66737368), (0x03015, 0x66737068),
  (0x03025, 0x66736468), (0x03035, 0x66736668), (0x03045, 0x66736768), (0x03050, 0x66736873), (0x03051, 0x66736870),
  (0x03052, 0x66736864), (0x03053, 0x66736866), (0x03054, 0x66736867), (0x03055, 0x66736868), (0x03105, 0x66707368),
  (0x03115, 0x66707068), (0x03125, 0x66706468), (0x03135, 0x66706668), (0x03145, 0x66706768), (0x03150, 0x66706873),
  (0x03151, 0x66706870), (0x03152, 0x66706864), (0x03153, 0x66706866), (0x03154, 0x66706867), (0x03155, 0x66706868),
  (0x03205, 0x66647368), (0x03215, 0x66647068), (0x03225, 0x66646468), (0x03235, 0x66646668), (0x03245, 0x66646768),
  (0x03250, 0x66646873), (0x03251, 0x66646870), (0x03252, 0x66646864), (0x03253, 0x66646866), (0x03254, 0x66646867),
  (0x03255, 0x66646868), (0x03305, 0x66667368), (0x03315, 0x66667068), (0x03325, 0x66666468), (0x03335, 0x66666668),
  (0x03345, 0x66666768), (0x03350, 0x66666873), (0x03351, 0x66666870), (0x03352, 0x66666864), (0x03353, 0x66666866),
  (0x03354, 0x66666867), (0x03355, 0x66666868), (0x03405, 0x66677368), (0x03415, 0x66677068), (0x03425, 0x66676468),
  (0x03435, 0x66676668), (0x03445, 0x66676768), (0x03450, 0x66676873), (0x03451, 0x66676870), (0x03452, 0x66676864),
  (0x03453, 0x66676866), (0x03454, 0x66676867), (0x03455, 0x66676868), (0x03500, 0x66687373), (0x03501, 0x66687370),
  (0x03502, 0x66687364), (0x03503, 0x66687366), (0x03504, 0x66687367), (0x03505, 0x66687368), (0x03510, 0x66687073),
  (0x03511, 0x66687070), (0x03512, 0x66687064), (0x03513, 0x66687066), (0x03514, 0x66687067), (0x03515, 0x66687068),
  (0x03520, 0x66686473), (0x03521, 0x66686470), (0x03522, 0x66686464), (0x03523, 0x66686466), (0x03524, 0x66686467),
  (0x03525, 0x66686468), (0x03530, 0x66686673), (0x03531, 0x66686670), (0x03532, 0x66686664), (0x03533, 0x66686666)]

def init0_5_1 : List (ℕ × ℕ) := [
  (0x03534, 0x66686667), (0x03535, 0x66686668), (0x03540, 0x66686773), (0x03541, 0x66686770), (0x03542, 0x66686764),
  (0x03543, 0x66686766), (0x03544, 0x66686767), (0x03545, 0x66686768), (0x03550, 0x66686873), (0x03551, 0x66686870),
  (0x03552, 0x66686864), (0x03553, 0x66686866), (0x03554, 0x66686867), (0x03555, 0x66686868), (0x04005, 0x67737368),
  (0x04015, 0x67737068), (0x04025, 0x67736468), (0x04035, 0x67736668), (0x04045, 0x67736768), (0x04050, 0x67736873),
  (0x04051, 0x67736870), (0x04052, 0x67736864), (0x04053, 0x67736866), (0x04054, 0x67736867), (0x04055, 0x67736868),
  (0x04105, 0x67707368), (0x04115, 0x67707068), (0x04125, 0x67706468), (0x04135, 0x67706668), (0x04145, 0x67706768),
  (0x04150, 0x67706873), (0x04151, 0x67706870), (0x04152, 0x67706864), (0x04153, 0x67706866), (0x04154, 0x67706867),
  (0x04155, 0x67706868), (0x04205, 0x67647368), (0x04215, 0x67647068), (0x04225, 0x67646468), (0x04235, 0x67646668),
  (0x04245, 0x67646768), (0x04250, 0x67646873), (0x04251, 0x67646870), (0x04252, 0x67646864), (0x04253, 0x67646866),
  (0x04254, 0x67646867), (0x04255, 0x67646868), (0x04305, 0x67667368), (0x04315, 0x67667068), (0x04325, 0x67666468),
  (0x04335, 0x67666668), (0x04345, 0x67666768), (0x04350, 0x67666873), (0x04351, 0x67666870), (0x04352, 0x67666864),
  (0x04353, 0x67666866), (0x04354, 0x67666867), (0x04355, 0x67666868), (0x04405, 0x67677368), (0x04415, 0x67677068),
  (0x04425, 0x67676468), (0x04435, 0x67676668), (0x04445, 0x67676768), (0x04450, 0x67676873), (0x04451, 0x67676870),
  (0x04452, 0x67676864), (0x04453, 0x67676866), (0x04454, 0x67676867), (0x04455, 0x67676868), (0x04500, 0x67687373),
  (0x04501, 0x67687370), (0x04502, 0x67687364), (0x04503, 0x67687366), (0x04504, 0x67687367), (0x04505, 0x67687368),
  (0x04510, 0x67687073), (0x04511, 0x67687070), (0x04512, 0x67687064), (0x04513, 0x67687066), (0x04514, 0x67687067),
  (0x04515, 0x67687068), (0x04520, 0x67686473), (0x04521, 0x67686470), (0x04522, 0x67686464), (0x04523, 0x67686466),
  (0x04524, 0x67686467), (0x04525, 0x67686468), (0x04530, 0x67686673), (0x04531, 0x67686670), (0x04532, 0x67686664),
  (0x04533, 0x67686666), (0x04534, 0x67686667), (0x04535, 0x67686668), (0x04540, 0x67686773), (0x04541, 0x67686770),
  (0x04542, 0x67686764), (0x04543, 0x67686766), (0x04544, 0x67686767), (0x04545, 0x67686768), (0x04550, 0x67686873),
  (0x04551, 0x67686870), (0x04552, 0x67686864), (0x04553, 0x67686866), (0x04554, 0x67686867), (0x04555, 0x67686868),
  (0x05000, 0x68737373), (0x05001, 0x68737370), (0x05002, 0x68737364), (0x05003, 0x68737366), (0x05004, 0x68737367),
  (0x05005, 0x68737368), (0x05010, 0x68737073), (0x05011, 0x68737070), (0x05012, 0x68737064), (0x05013, 0x68737066),
  (0x05014, 0x68737067), (0x05015, 0x68737068), (0x05020, 0x68736473), (0x05021, 0x68736470), (0x05022, 0x68736464),
  (0x05023, 0x68736466), (0x05024, 0x68736467), (0x05025, 0x68736468), (0x05030, 0x68736673), (0x05031, 0x68736670),
  (0x05032, 0x68736664), (0x05033, 0x68736666), (0x05034, 0x68736667), (0x05035, 0x68736668), (0x05040, 0x68736773),
  (0x05041, 0x68736770), (0x05042, 0x68736764), (0x05043, 0x68736766), (0x05044, 0x68736767), (0x05045, 0x68736768),
  (0x05050, 0x68736873), (0x05051, 0x68736870), (0x05052, 0x68736864), (0x05053, 0x68736866), (0x05054, 0x68736867),
  (0x05055, 0x68736868), (0x05100, 0x68707373), (0x05101, 0x68707370), (0x05102, 0x68707364), (0x05103, 0x68707366),
  (0x05104, 0x68707367), (0x05105, 0x68707368), (0x05110, 0x68707073), (0x05111, 0x68707070), (0x05112, 0x68707064),
  (0x05113, 0x68707066), (0x05114, 0x68707067), (0x05115, 0x68707068), (0x05120, 0x68706473), (0x05121, 0x68706470),
  (0x05122, 0x68706464), (0x05123, 0x68706466), (0x05124, 0x68706467), (0x05125, 0x68706468), (0x05130, 0x68706673),
  (0x05131, 0x68706670), (0x05132, 0x68706664), (0x05133, 0x68706666), (0x05134, 0x68706667), (0x05135, 0x68706668),
  (0x05140, 0x68706773), (0x05141, 0x68706770), (0x05142, 0x68706764), (0x05143, 0x68706766), (0x05144, 0x68706767),
  (0x05145, 0x68706768), (0x05150, 0x68706873), (0x05151, 0x68706870), (0x05152, 0x68706864), (0x05153, 0x68706866),
  (0x05154, 0x68706867), (0x05155, 0x68706868), (0x05200, 0x68647373), (0x05201, 0x68647370), (0x05202, 0x68647364),
  (0x05203, 0x68647366), (0x05204, 0x68647367), (0x05205, 0x68647368), (0x05210, 0x68647073), (0x05211, 0x68647070),
  (0x05212, 0x68647064), (0x05213, 0x68647066), (0x05214, 0x68647067), (0x05215, 0x68647068), (0x05220, 0x68646473),
  (0x05221, 0x68646470), (0x05222, 0x68646464), (0x05223, 0x68646466), (0x05224, 0x68646467), (0x05225, 0x68646468),
  (0x05230, 0x68646673), (0x05231, 0x68646670), (0x05232, 0x68646664), (0x05233, 0x68646666), (0x05234, 0x68646667),
  (0x05235, 0x68646668), (0x05240, 0x68646773), (0x05241, 0x68646770), (0x05242, 0x68646764), (0x05243, 0x68646766),
  (0x05244, 0x68646767), (0x05245, 0x68646768), (0x05250, 0x68646873), (0x05251, 0x68646870), (0x05252, 0x68646864),
  (0x05253, 0x68646866), (0x05254, 0x68646867), (0x05255, 0x68646868), (0x05300, 0x68667373), (0x05301, 0x68667370),
  (0x05302, 0x68667364), (0x05303, 0x68667366), (0x05304, 0x68667367), (0x05305, 0x68667368), (0x05310, 0x68667073),
  (0x05311, 0x68667070), (0x05312, 0x68667064), (0x05313, 0x68667066), (0x05314, 0x68667067), (0x05315, 0x68667068),
  (0x05320, 0x68666473), (0x05321, 0x68666470), (0x05322, 0x68666464), (0x05323, 0x68666466), (0x05324, 0x68666467),
  (0x05325, 0x68666468), (0x05330, 0x68666673), (0x05331, 0x68666670), (0x05332, 0x68666664), (0x05333, 0x68666666),
  (0x05334, 0x68666667), (0x05335, 0x68666668), (0x05340, 0x68666773), (0x05341, 0x68666770), (0x05342, 0x68666764),
  (0x05343, 0x68666766), (0x05344, 0x68666767), (0x05345, 0x68666768), (0x05350, 0x68666873), (0x05351, 0x68666870),
  (0x05352, 0x68666864), (0x05353, 0x68666866), (0x05354, 0x68666867), (0x05355, 0x68666868), (0x05400, 0x68677373),
  (0x05401, 0x68677370), (0x05402, 0x68677364), (0x05403, 0x68677366), (0x05404, 0x68677367), (0x05405, 0x68677368),
  (0x05410, 0x68677073), (0x05411, 0x68677070), (0x05412, 0x68677064), (0x05413, 0x68677066), (0x05414, 0x68677067),
  (0x05415, 0x68677068), (0x05420, 0x68676473), (0x05421, 0x68676470), (0x05422, 0x68676464), (0x05423, 0x68676466),
  (0x05424, 0x68676467), (0x05425, 0x68676468), (0x05430, 0x68676673), (0x05431, 0x68676670), (0x05432, 0x68676664),
  (0x05433, 0x68676666), (0x05434, 0x68676667), (0x05435, 0x68676668), (0x05440, 0x68676773), (0x05441, 0x68676770),
  (0x05442, 0x68676764), (0x05443, 0x68676766), (0x05444, 0x68676767), (0x05445, 0x68676768), (0x05450, 0x68676873),
  (0x05451, 0x68676870), (0x05452, 0x68676864), (0x05453, 0x68676866), (0x05454, 0x68676867), (0x05455, 0x68676868),
  (0x05500, 0x68687373), (0x05501, 0x68687370), (0x05502, 0x68687364), (0x05503, 0x68687366), (0x05504, 0x68687367),
  (0x05505, 0x68687368), (0x05510, 0x68687073), (0x05511, 0x68687070), (0x05512, 0x68687064), (0x05513, 0x68687066),
  (0x05514, 0x68687067), (0x05515, 0x68687068), (0x05520, 0x68686473), (0x05521, 0x68686470), (0x05522, 0x68686464),
  (0x05523, 0x68686466), (0x05524, 0x68686467), (0x05525, 0x68686468), (0x05530, 0x68686673), (0x05531, 0x68686670),
  (0x05532, 0x68686664), (0x05533, 0x68686666), (0x05534, 0x68686667), (0x05535, 0x68686668), (0x05540, 0x68686773),
  (0x05541, 0x68686770), (0x05542, 0x68686764), (0x05543, 0x68686766), (0x05544, 0x68686767), (0x05545, 0x68686768),
  (0x05550, 0x68686873), (0x05551, 0x68686870), (0x05552, 0x68686864), (0x05553, 0x68686866), (0x05554, 0x68686867),
  (0x05555, 0x68686868)]

def init0_5 : List (ℕ × ℕ) :=
  init0_5_0 ++ init0_5_1

def init0_6_0 : List (ℕ × ℕ) := [
  (0x00006, 0x73737369), (0x00016, 0x73737069), (0x00026, 0x73736469), (0x00036, 0x73736669), (0x00046, 0x73736769),
  (0x00056, 0x73736869), (0x00060, 0x73736973), (0x00061, 0x73736970), (0x00062, 0x73736964), (0x00063, 0x73736966),
  (0x00064, 0x73736967), (0x00065, 0x73736968), (0x00066, 0x73736969), (0x00106, 0x73707369), (0x00116, 0x73707069),
  (0x00126, 0x73706469), (0x00136, 0x73706669), (0x00146, 0x73706769), (0x00156, 0x73706869), (0x00160, 0x73706973),
  (0x00161, 0x73706970), (0x00162, 0x73706964), (0x00163, 0x73706966), (0x00164, 0x73706967), (0x00165, 0x73706968),
  (0x00166, 0x73706969), (0x00206, 0x73647369), (0x00216, 0x73647069), (0x00226, 0x73646469), (0x00236, 0x73646669),
  (0x00246, 0x73646769), (0x00256, 0x73646869), (0x00260, 0x73646973), (0x00261, 0x73646970), (0x00262, 0x73646964),
  (0x00263, 0x73646966), (0x00264, 0x73646967), (0x00265, 0x73646968), (0x00266, 0x73646969), (0x00306, 0x73667369),
  (0x00316, 0x73667069), (0x00326, 0x73666469), (0x00336, 0x73666669), (0x00346, 0x73666769), (0x00356, 0x73666869),
  (0x00360, 0x73666973), (0x00361, 0x73666970), (0x00362, 0x73666964), (0x00363, 0x73666966), (0x00364, 0x73666967),
  (0x00365, 0x73666968), (0x00366, 0x73666969), (0x00406, 0x73677369), (0x00416, 0x73677069), (0x00426, 0x73676469),
  (0x00436, 0x73676669), (0x00446, 0x73676769), (0x00456, 0x73676869), (0x00460, 0x73676973), (0x00461, 0x73676970),
  (0x00462, 0x73676964), (0x00463, 0x73676966), (0x00464, 0x73676967), (0x00465, 0x73676968), (0x00466, 0x73676969),
  (0x00506, 0x73687369), (0x00516, 0x73687069), (0x00526, 0x73686469), (0x00536, 0x73686669), (0x00546, 0x73686769),
  (0x00556, 0x73686869), (0x00560, 0x73686973), (0x00561, 0x73686970), (0x00562, 0x73686964), (0x00563, 0x73686966),
  (0x00564, 0x73686967), (0x00565, 0x73686968), (0x00566, 0x73686969), (0x00600, 0x73697373), (0x00601, 0x73697370),
  (0x00602, 0x73697364), (0x00603, 0x73697366), (0x00604, 0x73697367), (0x00605, 0x73697368), (0x00606, 0x73697369),
  (0x00610, 0x73697073), (0x00611, 0x73697070), (0x00612, 0x73697064), (0x00613, 0x73697066), (0x00614, 0x73697067),
  (0x00615, 0x73697068), (0x00616, 0x73697069), (0x00620, 0x73696473), (0x00621, 0x73696470), (0x00622, 0x73696464),
  (0x00623, 0x73696466), (0x00624, 0x73696467), (0x00625, 0x73696468), (0x00626, 0x73696469), (0x00630, 0x73696673),
  (0x00631, 0x73696670), (0x00632, 0x73696664), (0x00633, 0x73696666), (0x00634, 0x73696667), (0x00635, 0x73696668),
  (0x00636, 0x73696669), (0x00640, 0x73696773), (0x00641, 0x73696770), (0x00642, 0x73696764), (0x00643, 0x73696766),
  (0x00644, 0x73696767), (0x00645, 0x73696768), (0x00646, 0x73696769), (0x00650, 0x73696873), (0x00651, 0x73696870),
  (0x00652, 0x73696864), (0x00653, 0x73696866), (0x00654, 0x73696867), (0x00655, 0x73696868), (0x00656, 0x73696869),
  (0x00660, 0x73696973), (0x00661, 0x73696970), (0x00662, 0x73696964), (0x00663, 0x73696966), (0x00664, 0x73696967),
  (0x00665, 0x73696968), (0x00666, 0x73696969), (0x01006, 0x70737369), (0x01016, 0x70737069), (0x01026, 0x70736469),
  (0x01036, 0x70736669), (0x01046, 0x70736769), (0x01056, 0x70736869), (0x01060, 0x70736973), (0x01061, 0x70736970),
  (0x01062, 0x70736964), (0x01063, 0x70736966), (0x01064, 0x70736967), (0x01065, 0x70736968), (0x01066, 0x70736969),
  (0x01106, 0x70707369), (0x01116, 0x70707069), (0x01126, 0x70706469), (0x01136, 0x70706669), (0x01146, 0x70706769),
  (0x01156, 0x70706869), (0x01160, 0x70706973), (0x01161, 0x70706970), (0x01162, 0x70706964), (0x01163, 0x70706966),
  (0x01164, 0x70706967), (0x01165, 0x70706968), (0x01166, 0x70706969), (0x01206, 0x70647369), (0x01216, 0x70647069),
  (0x01226, 0x70646469), (0x01236, 0x70646669), (0x01246, 0x70646769), (0x01256, 0x70646869), (0x01260, 0x70646973),
  (0x01261, 0x70646970), (0x01262, 0x70646964), (0x01263, 0x70646966), (0x01264, 0x70646967), (0x01265, 0x70646968),
  (0x01266, 0x70646969), (0x01306, 0x70667369), (0x01316, 0x70667069), (0x01326, 0x70666469), (0x01336, 0x70666669),
  (0x01346, 0x70666769), (0x01356, 0x70666869), (0x01360, 0x70666973), (0x01361, 0x70666970), (0x01362, 0x70666964),
  (0x01363, 0x70666966), (0x01364, 0x70666967), (0x01365, 0x70666968), (0x01366, 0x70666969), (0x01406, 0x70677369),
  (0x01416, 0x70677069), (0x01426, 0x70676469), (0x01436, 0x70676669), (0x01446, 0x70676769), (0x01456, 0x70676869),
  (0x01460, 0x70676973), (0x01461, 0x70676970), (0x01462, 0x70676964), (0x01463, 0x70676966), (0x01464, 0x70676967),
  (0x01465, 0x70676968), (0x01466, 0x70676969), (0x01506, 0x70687369), (0x01516, 0x70687069), (0x01526, 0x70686469),
  (0x01536, 0x70686669), (0x01546, 0x70686769), (0x01556, 0x70686869), (0x01560, 0x70686973), (0x01561, 0x70686970),
  (0x01562, 0x70686964), (0x01563, 0x70686966), (0x01564, 0x70686967), (0x01565, 0x70686968), (0x01566, 0x70686969),
  (0x01600, 0x70697373), (0x01601, 0x70697370), (0x01602, 0x70697364), (0x01603, 0x70697366), (0x01604, 0x70697367),
  (0x01605, 0x70697368), (0x01606, 0x70697369), (0x01610, 0x70697073), (0x01611, 0x70697070), (0x01612, 0x70697064),
  (0x01613, 0x70697066), (0x01614, 0x70697067), (0x01615, 0x70697068), (0x01616, 0x70697069), (0x01620, 0x70696473),
  (0x01621, 0x70696470), (0x01622, 0x70696464), (0x01623, 0x70696466), (0x01624, 0x70696467), (0x01625, 0x70696468),
  (0x01626, 0x70696469), (0x01630, 0x70696673), (0x01631, 0x70696670), (0x01632, 0x70696664), (0x01633, 0x70696666),
  (0x01634, 0x70696667), (0x01635, 0x70696668), (0x01636, 0x70696669), (0x01640, 0x70696773), (0x01641, 0x70696770),
  (0x01642, 0x70696764), (0x01643, 0x70696766), (0x01644, 0x70696767), (0x01645, 0x70696768), (0x01646, 0x70696769),
  (0x01650, 0x70696873), (0x01651, 0x70696870), (0x01652, 0x70696864), (0x01653, 0x70696866), (0x01654, 0x70696867),
  (0x01655, 0x70696868), (0x01656, 0x70696869), (0x01660, 0x70696973), (0x01661, 0x70696970), (0x01662, 0x70696964),
  (0x01663, 0x70696966), (0x01664, 0x70696967), (0x01665, 0x70696968), (0x01666, 0x70696969), (0x02006, 0x64737369),
  (0x02016, 0x64737069), (0x02026, 0x64736469), (0x02036, 0x64736669), (0x02046, 0x64736769), (0x02056, 0x64736869),
  (0x02060, 0x64736973), (0x02061, 0x64736970), (0x02062, 0x64736964), (0x02063, 0x64736966), (0x02064, 0x64736967),
  (0x02065, 0x64736968), (0x02066, 0x64736969), (0x02106, 0x64707369), (0x02116, 0x64707069), (0x02126, 0x64706469),
  (0x02136, 0x64706669), (0x02146, 0x64706769), (0x02156, 0x64706869), (0x02160, 0x64706973), (0x02161, 0x64706970),
  (0x02162, 0x64706964), (0x02163, 0x64706966), (0x02164, 0x64706967), (0x02165, 0x64706968), (0x02166, 0x64706969),
  (0x02206, 0x64647369), (0x02216, 0x64647069), (0x02226, 0x64646469), (0x02236, 0x64646669), (0x02246, 0x64646769),
  (0x02256, 0x64646869), (0x02260, 0x64646973), (0x02261, 0x64646970), (0x02262, 0x64646964), (0x02263, 0x64646966),
  (0x02264, 0x64646967), (0x02265, 0x64646968), (0x02266, 0x64646969), (0x02306, 0x64667369), (0x02316, 0x64667069),
  (0x02326, 0x64666469), (0x02336, 0x64666669), (0x02346, 0x64666769), (0x02356, 0x64666869), (0x02360, 0x64666973),
  (0x02361, 0x64666970), (0x02362, 0x64666964), (0x02363, 0x64666966), (0x02364, 0x64666967), (0x02365, 0x64666968),
  (0x02366, 0x64666969), (0x02406, 0x64677369), (0x02416, 0x64677069), (0x02426, 0x64676469), (0x02436, 0x64676669),
  (0x02446, 0x64676769), (0x02456, 0x64676869), (0x02460, 0x64676973), (0x02461, 0x64676970), (0x02462, 0x64676964),
  (0x02463, 0x64676966), (0x02464, 0x64676967), (0x02465, 0x64676968), (0x02466, 0x64676969), (0x02506, 0x64687369),
  (0x02516, 0x64687069), (0x02526, 0x64686469), (0x02536, 0x64686669), (0x02546, 0x64686769), (0x02556, 0x64686869),
  (0x02560, 0x64686973), (0x02561, 0x64686970), (0x02562, 0x64686964), (0x02563, 0x64686966), (0x02564, 0x64686967),
  (0x02565, 0x64686968), (0x02566, 0x64686969), (0x02600, 0x64697373), (0x02601, 0x64697370), (0x02602, 0x64697364),
  (0x02603, 0x64697366), (0x02604, 0x64697367), (0x02605, 0x64697368), (0x02606, 0x64697369), (0x02610, 0x64697073),
  (0x02611, 0x64697070), (0x02612, 0x64697064), (0x02613, 0x64697066), (0x02614, 0x64697067), (0x02615, 0x64697068),
  (0x02616, 0x64697069), (0x02620, 0x64696473), (0x02621, 0x64696470), (0x02622, 0x64696464), (0x02623, 0x64696466)]

def init0_6_1 : List (ℕ × ℕ) := [
  (0x02624, 0x64696467), (0x02625, 0x64696468), (0x02626, 0x64696469), (0x02630, 0x64696673), (0x02631, 0x64696670),
  (0x02632, 0x64696664), (0x02633, 0x64696666), (0x02634, 0x64696667), (0x02635, 0x64696668), (0x02636, 0x64696669),
  (0x02640, 0x64696773), (0x02641, 0x64696770), (0x02642, 0x64696764), (0x02643, 0x64696766), (0x02644, 0x64696767),
  (0x02645, 0x64696768), (0x02646, 0x64696769), (0x02650, 0x64696873), (0x02651, 0x64696870), (0x02652, 0x64696864),
  (0x02653, 0x64696866), (0x02654, 0x64696867), (0x02655, 0x64696868), (0x02656, 0x64696869), (0x02660, 0x64696973),
  (0x02661, 0x64696970), (0x02662, 0x64696964), (0x02663, 0x64696966), (0x02664, 0x64696967), (0x02665, 0x64696968),
  (0x02666, 0x64696969), (0x03006, 0x66737369), (0x03016, 0x66737069), (0x03026, 0x66736469), (0x03036, 0x66736669),
  (0x03046, 0x66736769), (0x03056, 0x66736869), (0x03060, 0x66736973), (0x03061, 0x66736970), (0x03062, 0x66736964),
  (0x03063, 0x66736966), (0x03064, 0x66736967), (0x03065, 0x66736968), (0x03066, 0x66736969), (0x03106, 0x66707369),
  (0x03116, 0x66707069), (0x03126, 0x66706469), (0x03136, 0x66706669), (0x03146, 0x66706769), (0x03156, 0x66706869),
  (0x03160, 0x66706973), (0x03161, 0x66706970), (0x03162, 0x66706964), (0x03163, 0x66706966), (0x03164, 0x66706967),
  (0x03165, 0x66706968), (0x03166, 0x66706969), (0x03206, 0x66647369), (0x03216, 0x66647069), (0x03226, 0x66646469),
  (0x03236, 0x66646669), (0x03246, 0x66646769), (0x03256, 0x66646869), (0x03260, 0x66646973), (0x03261, 0x66646970),
  (0x03262, 0x66646964), (0x03263, 0x66646966), (0x03264, 0x66646967), (0x03265, 0x66646968), (0x03266, 0x66646969),
  (0x03306, 0x66667369), (0x03316, 0x66667069), (0x03326, 0x66666469), (0x03336, 0x66666669), (0x03346, 0x66666769),
  (0x03356, 0x66666869), (0x03360, 0x66666973), (0x03361, 0x66666970), (0x03362, 0x66666964), (0x03363, 0x66666966),
  (0x03364, 0x66666967), (0x03365, 0x66666968), (0x03366, 0x66666969), (0x03406, 0x66677369), (0x03416, 0x66677069),
  (0x03426, 0x66676469), (0x03436, 0x66676669), (0x03446, 0x66676769), (0x03456, 0x66676869), (0x03460, 0x66676973),
  (0x03461, 0x66676970), (0x03462, 0x66676964), (0x03463, 0x66676966), (0x03464, 0x66676967), (0x03465, 0x66676968),
  (0x03466, 0x66676969), (0x03506, 0x66687369), (0x03516, 0x66687069), (0x03526, 0x66686469), (0x03536, 0x66686669),
  (0x03546, 0x66686769), (0x03556, 0x66686869), (0x03560, 0x66686973), (0x03561, 0x66686970), (0x03562, 0x66686964),
  (0x03563, 0x66686966), (0x03564, 0x66686967), (0x03565, 0x66686968), (0x03566, 0x66686969), (0x03600, 0x66697373),
  (0x03601, 0x66697370), (0x03602, 0x66697364), (0x03603, 0x66697366), (0x03604, 0x66697367), (0x03605, 0x66697368),
  (0x03606, 0x66697369), (0x03610, 0x66697073), (0x03611, 0x66697070), (0x03612, 0x66697064), (0x03613, 0x66697066),
  (0x03614, 0x66697067), (0x03615, 0x66697068), (0x03616, 0x66697069), (0x03620, 0x66696473), (0x03621, 0x66696470),
  (0x03622, 0x66696464), (0x03623, 0x66696466), (0x03624, 0x66696467), (0x03625, 0x66696468), (0x03626, 0x66696469),
  (0x03630, 0x66696673), (0x03631, 0x66696670), (0x03632, 0x66696664), (0x03633, 0x66696666), (0x03634, 0x66696667),
  (0x03635, 0x66696668), (0x03636, 0x66696669), (0x03640, 0x66696773), (0x03641, 0x66696770), (0x03642, 0x66696764),
  (0x03643, 0x66696766), (0x03644, 0x66696767), (0x03645, 0x66696768), (0x03646, 0x66696769), (0x03650, 0x66696873),
  (0x03651, 0x66696870), (0x03652, 0x66696864), (0x03653, 0x66696866), (0x03654, 0x66696867), (0x03655, 0x66696868),
  (0x03656, 0x66696869), (0x03660, 0x66696973), (0x03661, 0x66696970), (0x03662, 0x66696964), (0x03663, 0x66696966),
  (0x03664, 0x66696967), (0x03665, 0x66696968), (0x03666, 0x66696969), (0x04006, 0x67737369), (0x04016, 0x67737069),
  (0x04026, 0x67736469), (0x04036, 0x67736669), (0x04046, 0x67736769), (0x04056, 0x67736869), (0x04060, 0x67736973),
  (0x04061, 0x67736970), (0x04062, 0x67736964), (0x04063, 0x67736966), (0x04064, 0x67736967), (0x04065, 0x67736968),
  (0x04066, 0x67736969), (0x04106, 0x67707369), (0x04116, 0x67707069), (0x04126, 0x67706469), (0x04136, 0x67706669),
  (0x04146, 0x67706769), (0x04156, 0x67706869), (0x04160, 0x67706973), (0x04161, 0x67706970), (0x04162, 0x67706964),
  (0x04163, 0x67706966), (0x04164, 0x67706967), (0x04165, 0x67706968), (0x04166, 0x67706969), (0x04206, 0x67647369),
  (0x04216, 0x67647069), (0x04226, 0x67646469), (0x04236, 0x67646669), (0x04246, 0x67646769), (0x04256, 0x67646869),
  (0x04260, 0x67646973), (0x04261, 0x67646970), (0x04262, 0x67646964), (0x04263, 0x67646966), (0x04264, 0x67646967),
  (0x04265, 0x67646968), (0x04266, 0x67646969), (0x04306, 0x67667369), (0x04316, 0x67667069), (0x04326, 0x67666469),
  (0x04336, 0x67666669), (0x04346, 0x67666769), (0x04356, 0x67666869), (0x04360, 0x67666973), (0x04361, 0x67666970),
  (0x04362, 0x67666964), (0x04363, 0x67666966), (0x04364, 0x67666967), (0x04365, 0x67666968), (0x04366, 0x67666969),
  (0x04406, 0x67677369), (0x04416, 0x67677069), (0x04426, 0x67676469), (0x04436, 0x67676669), (0x04446, 0x67676769),
  (0x04456, 0x67676869), (0x04460, 0x67676973), (0x04461, 0x67676970), (0x04462, 0x67676964), (0x04463, 0x67676966),
  (0x04464, 0x67676967), (0x04465, 0x67676968), (0x04466, 0x67676969), (0x04506, 0x67687369), (0x04516, 0x67687069),
  (0x04526, 0x67686469), (0x04536, 0x67686669), (0x04546, 0x67686769), (0x04556, 0x67686869), (0x04560, 0x67686973),
  (0x04561, 0x67686970), (0x04562, 0x67686964), (0x04563, 0x67686966), (0x04564, 0x67686967), (0x04565, 0x67686968),
  (0x04566, 0x67686969), (0x04600, 0x67697373), (0x04601, 0x67697370), (0x04602, 0x67697364), (0x04603, 0x67697366),
  (0x04604, 0x67697367), (0x04605, 0x67697368), (0x04606, 0x67697369), (0x04610, 0x67697073), (0x04611, 0x67697070),
  (0x04612, 0x67697064), (0x04613, 0x67697066), (0x04614, 0x67697067), (0x04615, 0x67697068), (0x04616, 0x67697069),
  (0x04620, 0x67696473), (0x04621, 0x67696470), (0x04622, 0x67696464), (0x04623, 0x67696466), (0x04624, 0x67696467),
  (0x04625, 0x67696468), (0x04626, 0x67696469), (0x04630, 0x67696673), (0x04631, 0x67696670), (0x04632, 0x67696664),
  (0x04633, 0x67696666), (0x04634, 0x67696667), (0x04635, 0x67696668), (0x04636, 0x67696669), (0x04640, 0x67696773),
  (0x04641, 0x67696770), (0x04642, 0x67696764), (0x04643, 0x67696766), (0x04644, 0x67696767), (0x04645, 0x67696768),
  (0x04646, 0x67696769), (0x04650, 0x67696873), (0x04651, 0x67696870), (0x04652, 0x67696864), (0x04653, 0x67696866),
  (0x04654, 0x67696867), (0x04655, 0x67696868), (0x04656, 0x67696869), (0x04660, 0x67696973), (0x04661, 0x67696970),
  (0x04662, 0x67696964), (0x04663, 0x67696966), (0x04664, 0x67696967), (0x04665, 0x67696968), (0x04666, 0x67696969),
  (0x05006, 0x68737369), (0x05016, 0x68737069), (0x05026, 0x68736469), (0x05036, 0x68736669), (0x05046, 0x68736769),
  (0x05056, 0x68736869), (0x05060, 0x68736973), (0x05061, 0x68736970), (0x05062, 0x68736964), (0x05063, 0x68736966),
  (0x05064, 0x68736967), (0x05065, 0x68736968), (0x05066, 0x68736969), (0x05106, 0x68707369), (0x05116, 0x68707069),
  (0x05126, 0x68706469), (0x05136, 0x68706669), (0x05146, 0x68706769), (0x05156, 0x68706869), (0x05160, 0x68706973),
  (0x05161, 0x68706970), (0x05162, 0x68706964), (0x05163, 0x68706966), (0x05164, 0x68706967), (0x05165, 0x68706968),
  (0x05166, 0x68706969), (0x05206, 0x68647369), (0x05216, 0x68647069), (0x05226, 0x68646469), (0x05236, 0x68646669),
  (0x05246, 0x68646769), (0x05256, 0x68646869), (0x05260, 0x68646973), (0x05261, 0x68646970), (0x05262, 0x68646964),
  (0x05263, 0x68646966), (0x05264, 0x68646967), (0x05265, 0x68646968), (0x05266, 0x68646969), (0x05306, 0x68667369),
  (0x05316, 0x68667069), (0x05326, 0x68666469), (0x05336, 0x68666669), (0x05346, 0x68666769), (0x05356, 0x68666869),
  (0x05360, 0x68666973), (0x05361, 0x68666970), (0x05362, 0x68666964), (0x05363, 0x68666966), (0x05364, 0x68666967),
  (0x05365, 0x68666968), (0x05366, 0x68666969), (0x05406, 0x68677369), (0x05416, 0x68677069), (0x05426, 0x68676469),
  (0x05436, 0x68676669), (0x05446, 0x68676769), (0x05456, 0x68676869), (0x05460, 0x68676973), (0x05461, 0x68676970),
  (0x05462, 0x68676964), (0x05463, 0x68676966), (0x05464, 0x68676967), (0x05465, 0x68676968), (0x05466, 0x68676969)]

def init0_6_2 : List (ℕ × ℕ) := [
  (0x05506, 0x68687369), (0x05516, 0x68687069), (0x05526, 0x68686469), (0x05536, 0x68686669), (0x05546, 0x68686769),
  (0x05556, 0x68686869), (0x05560, 0x68686973), (0x05561, 0x68686970), (0x05562, 0x68686964), (0x05563, 0x68686966),
  (0x05564, 0x68686967), (0x05565, 0x68686968), (0x05566, 0x68686969), (0x05600, 0x68697373), (0x05601, 0x68697370),
  (0x05602, 0x68697364), (0x05603, 0x68697366), (0x05604, 0x68697367), (0x05605, 0x68697368), (0x05606, 0x68697369),
  (0x05610, 0x68697073), (0x05611, 0x68697070), (0x05612, 0x68697064), (0x05613, 0x68697066), (0x05614, 0x68697067),
  (0x05615, 0x68697068), (0x05616, 0x68697069), (0x05620, 0x68696473), (0x05621, 0x68696470), (0x05622, 0x68696464),
  (0x05623, 0x68696466), (0x05624, 0x68696467), (0x05625, 0x68696468), (0x05626, 0x68696469), (0x05630, 0x68696673),
  (0x05631, 0x68696670), (0x05632, 0x68696664), (0x05633, 0x68696666), (0x05634, 0x68696667), (0x05635, 0x68696668),
  (0x05636, 0x68696669), (0x05640, 0x68696773), (0x05641, 0x68696770), (0x05642, 0x68696764), (0x05643, 0x68696766),
  (0x05644, 0x68696767), (0x05645, 0x68696768), (0x05646, 0x68696769), (0x05650, 0x68696873), (0x05651, 0x68696870),
  (0x05652, 0x68696864), (0x05653, 0x68696866), (0x05654, 0x68696867), (0x05655, 0x68696868), (0x05656, 0x68696869),
  (0x05660, 0x68696973), (0x05661, 0x68696970), (0x05662, 0x68696964), (0x05663, 0x68696966), (0x05664, 0x68696967),
  (0x05665, 0x68696968), (0x05666, 0x68696969), (0x06000, 0x69737373), (0x06001, 0x69737370), (0x06002, 0x69737364),
  (0x06003, 0x69737366), (0x06004, 0x69737367), (0x06005, 0x69737368), (0x06006, 0x69737369), (0x06010, 0x69737073),
  (0x06011, 0x69737070), (0x06012, 0x69737064), (0x06013, 0x69737066), (0x06014, 0x69737067), (0x06015, 0x69737068),
  (0x06016, 0x69737069), (0x06020, 0x69736473), (0x06021, 0x69736470), (0x06022, 0x69736464), (0x06023, 0x69736466),
  (0x06024, 0x69736467), (0x06025, 0x69736468), (0x06026, 0x69736469), (0x06030, 0x69736673), (0x06031, 0x69736670),
  (0x06032, 0x69736664), (0x06033, 0x69736666), (0x06034, 0x69736667), (0x06035, 0x69736668), (0x06036, 0x69736669),
  (0x06040, 0x69736773), (0x06041, 0x69736770), (0x06042, 0x69736764), (0x06043, 0x69736766), (0x06044, 0x69736767),
  (0x06045, 0x69736768), (0x06046, 0x69736769), (0x06050, 0x69736873), (0x06051, 0x69736870), (0x06052, 0x69736864),
  (0x06053, 0x69736866), (0x06054, 0x69736867), (0x06055, 0x69736868), (0x06056, 0x69736869), (0x06060, 0x69736973),
  (0x06061, 0x69736970), (0x06062, 0x69736964), (0x06063, 0x69736966), (0x06064, 0x69736967), (0x06065, 0x69736968),
  (0x06066, 0x69736969), (0x06100, 0x69707373), (0x06101, 0x69707370), (0x06102, 0x69707364), (0x06103, 0x69707366),
  (0x06104, 0x69707367), (0x06105, 0x69707368), (0x06106, 0x69707369), (0x06110, 0x69707073), (0x06111, 0x69707070),
  (0x06112, 0x69707064), (0x06113, 0x69707066), (0x06114, 0x69707067), (0x06115, 0x69707068), (0x06116, 0x69707069),
  (0x06120, 0x69706473), (0x06121, 0x69706470), (0x06122, 0x69706464), (0x06123, 0x69706466), (0x06124, 0x69706467),
  (0x06125, 0x69706468), (0x06126, 0x69706469), (0x06130, 0x69706673), (0x06131, 0x69706670), (0x06132, 0x69706664),
  (0x06133, 0x69706666), (0x06134, 0x69706667), (0x06135, 0x69706668), (0x06136, 0x69706669), (0x06140, 0x69706773),
  (0x06141, 0x69706770), (0x06142, 0x69706764), (0x06143, 0x69706766), (0x06144, 0x69706767), (0x06145, 0x69706768),
  (0x06146, 0x69706769), (0x06150, 0x69706873), (0x06151, 0x69706870), (0x06152, 0x69706864), (0x06153, 0x69706866),
  (0x06154, 0x69706867), (0x06155, 0x69706868), (0x06156, 0x69706869), (0x06160, 0x69706973), (0x06161, 0x69706970),
  (0x06162, 0x69706964), (0x06163, 0x69706966), (0x06164, 0x69706967), (0x06165, 0x69706968), (0x06166, 0x69706969),
  (0x06200, 0x69647373), (0x06201, 0x69647370), (0x06202, 0x69647364), (0x06203, 0x69647366), (0x06204, 0x69647367),
  (0x06205, 0x69647368), (0x06206, 0x69647369), (0x06210, 0x69647073), (0x06211, 0x69647070), (0x06212, 0x69647064),
  (0x06213, 0x69647066), (0x06214, 0x69647067), (0x06215, 0x69647068), (0x06216, 0x69647069), (0x06220, 0x69646473),
  (0x06221, 0x69646470), (0x06222, 0x69646464), (0x06223, 0x69646466), (0x06224, 0x69646467), (0x06225, 0x69646468),
  (0x06226, 0x69646469), (0x06230, 0x69646673), (0x06231, 0x69646670), (0x06232, 0x69646664), (0x06233, 0x69646666),
  (0x06234, 0x69646667), (0x06235, 0x69646668), (0x06236, 0x69646669), (0x06240, 0x69646773), (0x06241, 0x69646770),
  (0x06242, 0x69646764), (0x06243, 0x69646766), (0x06244, 0x69646767), (0x06245, 0x69646768), (0x06246, 0x69646769),
  (0x06250, 0x69646873), (0x06251, 0x69646870), (0x06252, 0x69646864), (0x06253, 0x69646866), (0x06254, 0x69646867),
  (0x06255, 0x69646868), (0x06256, 0x69646869), (0x06260, 0x69646973), (0x06261, 0x69646970), (0x06262, 0x69646964),
  (0x06263, 0x69646966), (0x06264, 0x69646967), (0x06265, 0x69646968), (0x06266, 0x69646969), (0x06300, 0x69667373),
  (0x06301, 0x69667370), (0x06302, 0x69667364), (0x06303, 0x69667366), (0x06304, 0x69667367), (0x06305, 0x69667368),
  (0x06306, 0x69667369), (0x06310, 0x69667073), (0x06311, 0x69667070), (0x06312, 0x69667064), (0x06313, 0x69667066),
  (0x06314, 0x69667067), (0x06315, 0x69667068), (0x06316, 0x69667069), (0x06320, 0x69666473), (0x06321, 0x69666470),
  (0x06322, 0x69666464), (0x06323, 0x69666466), (0x06324, 0x69666467), (0x06325, 0x69666468), (0x06326, 0x69666469),
  (0x06330, 0x69666673), (0x06331, 0x69666670), (0x06332, 0x69666664), (0x06333, 0x69666666), (0x06334, 0x69666667),
  (0x06335, 0x69666668), (0x06336, 0x69666669), (0x06340, 0x69666773), (0x06341, 0x69666770), (0x06342, 0x69666764),
  (0x06343, 0x69666766), (0x06344, 0x69666767), (0x06345, 0x69666768), (0x06346, 0x69666769), (0x06350, 0x69666873),
  (0x06351, 0x69666870), (0x06352, 0x69666864), (0x06353, 0x69666866), (0x06354, 0x69666867), (0x06355, 0x69666868),
  (0x06356, 0x69666869), (0x06360, 0x69666973), (0x06361, 0x69666970), (0x06362, 0x69666964), (0x06363, 0x69666966),
  (0x06364, 0x69666967), (0x06365, 0x69666968), (0x06366, 0x69666969), (0x06400, 0x69677373), (0x06401, 0x69677370),
  (0x06402, 0x69677364), (0x06403, 0x69677366), (0x06404, 0x69677367), (0x06405, 0x69677368), (0x06406, 0x69677369),
  (0x06410, 0x69677073), (0x06411, 0x69677070), (0x06412, 0x69677064), (0x06413, 0x69677066), (0x06414, 0x69677067),
  (0x06415, 0x69677068), (0x06416, 0x69677069), (0x06420, 0x69676473), (0x06421, 0x69676470), (0x06422, 0x69676464),
  (0x06423, 0x69676466), (0x06424, 0x69676467), (0x06425, 0x69676468), (0x06426, 0x69676469), (0x06430, 0x69676673),
  (0x06431, 0x69676670), (0x06432, 0x69676664), (0x06433, 0x69676666), (0x06434, 0x69676667), (0x06435, 0x69676668),
  (0x06436, 0x69676669), (0x06440, 0x69676773), (0x06441, 0x69676770), (0x06442, 0x69676764), (0x06443, 0x69676766),
  (0x06444, 0x69676767), (0x06445, 0x69676768), (0x06446, 0x69676769), (0x06450, 0x69676873), (0x06451, 0x69676870),
  (0x06452, 0x69676864), (0x06453, 0x69676866), (0x06454, 0x69676867), (0x06455, 0x69676868), (0x06456, 0x69676869),
  (0x06460, 0x69676973), (0x06461, 0x69676970), (0x06462, 0x69676964), (0x06463, 0x69676966), (0x06464, 0x69676967),
  (0x06465, 0x69676968), (0x06466, 0x69676969), (0x06500, 0x69687373), (0x06501, 0x69687370), (0x06502, 0x69687364),
  (0x06503, 0x69687366), (0x06504, 0x69687367), (0x06505, 0x69687368), (0x06506, 0x69687369), (0x06510, 0x69687073),
  (0x06511, 0x69687070), (0x06512, 0x69687064), (0x06513, 0x69687066), (0x06514, 0x69687067), (0x06515, 0x69687068),
  (0x06516, 0x69687069), (0x06520, 0x69686473), (0x06521, 0x69686470), (0x06522, 0x69686464), (0x06523, 0x69686466),
  (0x06524, 0x69686467), (0x06525, 0x69686468), (0x06526, 0x69686469), (0x06530, 0x69686673), (0x06531, 0x69686670),
  (0x06532, 0x69686664), (0x06533, 0x69686666), (0x06534, 0x69686667), (0x06535, 0x69686668), (0x06536, 0x69686669),
  (0x06540, 0x69686773), (0x06541, 0x69686770), (0x06542, 0x69686764), (0x06543, 0x69686766), (0x06544, 0x69686767),
  (0x06545, 0x69686768), (0x06546, 0x69686769), (0x06550, 0x69686873), (0x06551, 0x69686870), (0x06552, 0x69686864),
  (0x06553, 0x69686866), (0x06554, 0x69686867), (0x06555, 0x69686868), (0x06556, 0x69686869), (0x06560, 0x69686973)]

def init0_6_3 : List (ℕ × ℕ) := [
  (0x06561, 0x69686970), (0x06562, 0x69686964), (0x06563, 0x69686966), (0x06564, 0x69686967), (0x06565, 0x69686968),
  (0x06566, 0x69686969), (0x06600, 0x69697373), (0x06601, 0x69697370), (0x06602, 0x69697364), (0x06603, 0x69697366),
  (0x06604, 0x69697367), (0x06605, 0x69697368), (0x06606, 0x69697369), (0x06610, 0x69697073), (0x06611, 0x69697070),
  (0x06612, 0x69697064), (0x06613, 0x69697066), (0x06614, 0x69697067), (0x06615, 0x69697068), (0x06616, 0x69697069),
  (0x06620, 0x69696473), (0x06621, 0x69696470), (0x06622, 0x69696464), (0x06623, 0x69696466), (0x06624, 0x69696467),
  (0x06625, 0x69696468), (0x06626, 0x69696469), (0x06630, 0x69696673), (0x06631, 0x69696670), (0x06632, 0x69696664),
  (0x06633, 0x69696666), (0x06634, 0x69696667), (0x06635, 0x69696668), (0x06636, 0x69696669), (0x06640, 0x69696773),
  (0x06641, 0x69696770), (0x06642, 0x69696764), (0x06643, 0x69696766), (0x06644, 0x69696767), (0x06645, 0x69696768),
  (0x06646, 0x69696769), (0x06650, 0x69696873), (0x06651, 0x69696870), (0x06652, 0x69696864), (0x06653, 0x69696866),
  (0x06654, 0x69696867), (0x06655, 0x69696868), (0x06656, 0x69696869), (0x06660, 0x69696973), (0x06661, 0x69696970),
  (0x06662, 0x69696964), (0x06663, 0x69696966), (0x06664, 0x69696967), (0x06665, 0x69696968), (0x06666, 0x69696969)]

def init0_6 : List (ℕ × ℕ) :=
  init0_6_0 ++ init0_6_1 ++ init0_6_2 ++ init0_6_3

def init0_7_0 : List (ℕ × ℕ) := [
  (0x00007, 0x7373736B), (0x00017, 0x7373706B), (0x00027, 0x7373646B), (0x00037, 0x7373666B), (0x00047, 0x7373676B),
  (0x00057, 0x7373686B), (0x00067, 0x7373696B), (0x00070, 0x73736B73), (0x00071, 0x73736B70), (0x00072, 0x73736B64),
  (0x00073, 0x73736B66), (0x00074, 0x73736B67), (0x00075, 0x73736B68), (0x00076, 0x73736B69), (0x00077, 0x73736B6B),
  (0x00107, 0x7370736B), (0x00117, 0x7370706B), (0x00127, 0x7370646B), (0x00137, 0x7370666B), (0x00147, 0x7370676B),
  (0x00157, 0x7370686B), (0x00167, 0x7370696B), (0x00170, 0x73706B73), (0x00171, 0x73706B70), (0x00172, 0x73706B64),
  (0x00173, 0x73706B66), (0x00174, 0x73706B67), (0x00175, 0x73706B68), (0x00176, 0x73706B69), (0x00177, 0x73706B6B),
  (0x00207, 0x7364736B), (0x00217, 0x7364706B), (0x00227, 0x7364646B), (0x00237, 0x7364666B), (0x00247, 0x7364676B),
  (0x00257, 0x7364686B), (0x00267, 0x7364696B), (0x00270, 0x73646B73), (0x00271, 0x73646B70), (0x00272, 0x73646B64),
  (0x00273, 0x73646B66), (0x00274, 0x73646B67), (0x00275, 0x73646B68), (0x00276, 0x73646B69), (0x00277, 0x73646B6B),
  (0x00307, 0x7366736B), (0x00317, 0x7366706B), (0x00327, 0x7366646B), (0x00337, 0x7366666B), (0x00347, 0x7366676B),
  (0x00357, 0x7366686B), (0x00367, 0x7366696B), (0x00370, 0x73666B73), (0x00371, 0x73666B70), (0x00372, 0x73666B64),
  (0x00373, 0x73666B66), (0x00374, 0x73666B67), (0x00375, 0x73666B68), (0x00376, 0x73666B69), (0x00377, 0x73666B6B),
  (0x00407, 0x7367736B), (0x00417, 0x7367706B), (0x00427, 0x7367646B), (0x00437, 0x7367666B), (0x00447, 0x7367676B),
  (0x00457, 0x7367686B), (0x00467, 0x7367696B), (0x00470, 0x73676B73), (0x00471, 0x73676B70), (0x00472, 0x73676B64),
  (0x00473, 0x73676B66), (0x00474, 0x73676B67), (0x00475, 0x73676B68), (0x00476, 0x73676B69), (0x00477, 0x73676B6B),
  (0x00507, 0x7368736B), (0x00517, 0x7368706B), (0x00527, 0x7368646B), (0x00537, 0x7368666B), (0x00547, 0x7368676B),
  (0x00557, 0x7368686B), (0x00567, 0x7368696B), (0x00570, 0x73686B73), (0x00571, 0x73686B70), (0x00572, 0x73686B64),
  (0x00573, 0x73686B66), (0x00574, 0x73686B67), (0x00575, 0x73686B68), (0x00576, 0x73686B69), (0x00577, 0x73686B6B),
  (0x00607, 0x7369736B), (0x00617, 0x7369706B), (0x00627, 0x7369646B), (0x00637, 0x7369666B), (0x00647, 0x7369676B),
  (0x00657, 0x7369686B), (0x00667, 0x7369696B), (0x00670, 0x73696B73), (0x00671, 0x73696B70), (0x00672, 0x73696B64),
  (0x00673, 0x73696B66), (0x00674, 0x73696B67), (0x00675, 0x73696B68), (0x00676, 0x73696B69), (0x00677, 0x73696B6B),
  (0x00700, 0x736B7373), (0x00701, 0x736B7370), (0x00702, 0x736B7364), (0x00703, 0x736B7366), (0x00704, 0x736B7367),
  (0x00705, 0x736B7368), (0x00706, 0x736B7369), (0x00707, 0x736B736B), (0x00710, 0x736B7073), (0x00711, 0x736B7070),
  (0x00712, 0x736B7064), (0x00713, 0x736B7066), (0x00714, 0x736B7067), (0x00715, 0x736B7068), (0x00716, 0x736B7069),
  (0x00717, 0x736B706B), (0x00720, 0x736B6473), (0x00721, 0x736B6470), (0x00722, 0x736B6464), (0x00723, 0x736B6466),
  (0x00724, 0x736B6467), (0x00725, 0x736B6468), (0x00726, 0x736B6469), (0x00727, 0x736B646B), (0x00730, 0x736B6673),
  (0x00731, 0x736B6670), (0x00732, 0x736B6664), (0x00733, 0x736B6666), (0x00734, 0x736B6667), (0x00735, 0x736B6668),
  (0x00736, 0x736B6669), (0x00737, 0x736B666B), (0x00740, 0x736B6773), (0x00741, 0x736B6770), (0x00742, 0x736B6764),
  (0x00743, 0x736B6766), (0x00744, 0x736B6767), (0x00745, 0x736B6768), (0x00746, 0x736B6769), (0x00747, 0x736B676B),
  (0x00750, 0x736B6873), (0x00751, 0x736B6870), (0x00752, 0x736B6864), (0x00753, 0x736B6866), (0x00754, 0x736B6867),
  (0x00755, 0x736B6868), (0x00756, 0x736B6869), (0x00757, 0x736B686B), (0x00760, 0x736B6973), (0x00761, 0x736B6970),
  (0x00762, 0x736B6964), (0x00763, 0x736B6966), (0x00764, 0x736B6967), (0x00765, 0x736B6968), (0x00766, 0x736B6969),
  (0x00767, 0x736B696B), (0x00770, 0x736B6B73), (0x00771, 0x736B6B70), (0x00772, 0x736B6B64), (0x00773, 0x736B6B66),
  (0x00774, 0x736B6B67), (0x00775, 0x736B6B68), (0x00776, 0x736B6B69), (0x00777, 0x736B6B6B), (0x01007, 0x7073736B),
  (0x01017, 0x7073706B), (0x01027, 0x7073646B), (0x01037, 0x7073666B), (0x01047, 0x7073676B), (0x01057, 0x7073686B),
  (0x01067, 0x7073696B), (0x01070, 0x70736B73), (0x01071, 0x70736B70), (0x01072, 0x70736B64), (0x01073, 0x70736B66),
  (0x01074, 0x70736B67), (0x01075, 0x70736B68), (0x01076, 0x70736B69), (0x01077, 0x70736B6B), (0x01107, 0x7070736B),
  (0x01117, 0x7070706B), (0x01127, 0x7070646B), (0x01137, 0x7070666B), (0x01147, 0x7070676B), (0x01157, 0x7070686B),
  (0x01167, 0x7070696B), (0x01170, 0x70706B73), (0x01171, 0x70706B70), (0x01172, 0x70706B64), (0x01173, 0x70706B66),
  (0x01174, 0x70706B67), (0x01175, 0x70706B68), (0x01176, 0x70706B69), (0x01177, 0x70706B6B), (0x01207, 0x7064736B),
  (0x01217, 0x7064706B), (0x01227, 0x7064646B), (0x01237, 0x7064666B), (0x01247, 0x7064676B), (0x01257, 0x7064686B),
  (0x01267, 0x7064696B), (0x01270, 0x70646B73), (0x01271, 0x70646B70), (0x01272, 0x70646B64), (0x01273, 0x70646B66),
  (0x01274, 0x70646B67), (0x01275, 0x70646B68), (0x01276, 0x70646B69), (0x01277, 0x70646B6B), (0x01307, 0x7066736B),
  (0x01317, 0x7066706B), (0x01327, 0x7066646B), (0x01337, 0x7066666B), (0x01347, 0x7066676B), (0x01357, 0x7066686B),
  (0x01367, 0x7066696B), (0x01370, 0x70666B73), (0x01371, 0x70666B70), (0x01372, 0x70666B64), (0x01373, 0x70666B66),
  (0x01374, 0x70666B67), (0x01375, 0x70666B68), (0x01376, 0x70666B69), (0x01377, 0x70666B6B), (0x01407, 0x7067736B),
  (0x01417, 0x7067706B), (0x01427, 0x7067646B), (0x01437, 0x7067666B), (0x01447, 0x7067676B), (0x01457, 0x7067686B),
  (0x01467, 0x7067696B), (0x01470, 0x70676B73), (0x01471, 0x70676B70), (0x01472, 0x70676B64), (0x01473, 0x70676B66),
  (0x01474, 0x70676B67), (0x01475, 0x70676B68), (0x01476, 0x70676B69), (0x01477, 0x70676B6B), (0x01507, 0x7068736B),
  (0x01517, 0x7068706B), (0x01527, 0x7068646B), (0x01537, 0x7068666B), (0x01547, 0x7068676B), (0x01557, 0x7068686B),
  (0x01567, 0x7068696B), (0x01570, 0x70686B73), (0x01571, 0x70686B70), (0x01572, 0x70686B64), (0x01573, 0x70686B66),
  (0x01574, 0x70686B67), (0x01575, 0x70686B68), (0x01576, 0x70686B69), (0x01577, 0x70686B6B), (0x01607, 0x7069736B),
  (0x01617, 0x7069706B), (0x01627, 0x7069646B), (0x01637, 0x7069666B), (0x01647, 0x7069676B), (0x01657, 0x7069686B),
  (0x01667, 0x7069696B), (0x01670, 0x70696B73), (0x01671, 0x70696B70), (0x01672, 0x70696B64), (0x01673, 0x70696B66),
  (0x01674, 0x70696B67), (0x01675, 0x70696B68), (0x01676, 0x70696B69), (0x01677, 0x70696B6B), (0x01700, 0x706B7373),
  (0x01701, 0x706B7370), (0x01702, 0x706B7364), (0x01703, 0x706B7366), (0x01704, 0x706B7367), (0x01705, 0x706B7368),
  (0x01706, 0x706B7369), (0x01707, 0x706B736B), (0x01710, 0x706B7073), (0x01711, 0x706B7070), (0x01712, 0x706B7064),
  (0x01713, 0x706B7066), (0x01714, 0x706B7067), (0x01715, 0x706B7068), (0x01716, 0x706B7069), (0x01717, 0x706B706B),
  (0x01720, 0x706B6473), (0x01721, 0x706B6470), (0x01722, 0x706B6464), (0x01723, 0x706B6466), (0x01724, 0x706B6467),
  (0x01725, 0x706B6468), (0x01726, 0x706B6469), (0x01727, 0x706B646B), (0x01730, 0x706B6673), (0x01731, 0x706B6670),
  (0x01732, 0x706B6664), (0x01733, 0x706B6666), (0x01734, 0x706B6667), (0x01735, 0x706B6668), (0x01736, 0x706B6669),
  (0x01737, 0x706B666B), (0x01740, 0x706B6773), (0x01741, 0x706B6770), (0x01742, 0x706B6764), (0x01743, 0x706B6766),
  (0x01744, 0x706B6767), (0x01745, 0x706B6768), (0x01746, 0x706B6769), (0x01747, 0x706B676B), (0x01750, 0x706B6873),
  (0x01751, 0x706B6870), (0x01752, 0x706B6864), (0x01753, 0x706B6866), (0x01754, 0x706B6867), (0x01755, 0x706B6868),
  (0x01756, 0x706B6869), (0x01757, 0x706B686B), (0x01760, 0x706B6973), (0x01761, 0x706B6970), (0x01762, 0x706B6964),
  (0x01763, 0x706B6966), (0x01764, 0x706B6967), (0x01765, 0x706B6968), (0x01766, 0x706B6969), (0x01767, 0x706B696B),
  (0x01770, 0x706B6B73), (0x01771, 0x706B6B70), (0x01772, 0x706B6B64), (0x01773, 0x706B6B66), (0x01774, 0x706B6B67),
  (0x01775, 0x706B6B68), (0x01776, 0x706B6B69), (0x01777, 0x706B6B6B), (0x02007, 0x6473736B), (0x02017, 0x6473706B),
  (0x02027, 0x6473646B), (0x02037, 0x6473666B), (0x02047, 0x6473676B), (0x02057, 0x6473686B), (0x02067, 0x6473696B),
  (0x02070, 0x64736B73), (0x02071, 0x64736B70), (0x02072, 0x64736B64), (0x02073, 0x64736B66), (0x02074, 0x64736B67)]

def init0_7_1 : List (ℕ × ℕ) := [
  (0x02075, 0x64736B68), (0x02076, 0x64736B69), (0x02077, 0x64736B6B), (0x02107, 0x6470736B), (0x02117, 0x6470706B),
  (0x02127, 0x6470646B), (0x02137, 0x6470666B), (0x02147, 0x6470676B), (0x02157, 0x6470686B), (0x02167, 0x6470696B),
  (0x02170, 0x64706B73), (0x02171, 0x64706B70), (0x02172, 0x64706B64), (0x02173, 0x64706B66), (0x02174, 0x64706B67),
  (0x02175, 0x64706B68), (0x02176, 0x64706B69), (0x02177, 0x64706B6B), (0x02207, 0x6464736B), (0x02217, 0x6464706B),
  (0x02227, 0x6464646B), (0x02237, 0x6464666B), (0x02247, 0x6464676B), (0x02257, 0x6464686B), (0x02267, 0x6464696B),
  (0x02270, 0x64646B73), (0x02271, 0x64646B70), (0x02272, 0x64646B64), (0x02273, 0x64646B66), (0x02274, 0x64646B67),
  (0x02275, 0x64646B68), (0x02276, 0x64646B69), (0x02277, 0x64646B6B), (0x02307, 0x6466736B), (0x02317, 0x6466706B),
  (0x02327, 0x6466646B), (0x02337, 0x6466666B), (0x02347, 0x6466676B), (0x02357, 0x6466686B), (0x02367, 0x6466696B),
  (0x02370, 0x64666B73), (0x02371, 0x64666B70), (0x02372, 0x64666B64), (0x02373, 0x64666B66), (0x02374, 0x64666B67),
  (0x02375, 0x64666B68), (0x02376, 0x64666B69), (0x02377, 0x64666B6B), (0x02407, 0x6467736B), (0x02417, 0x6467706B),
  (0x02427, 0x6467646B), (0x02437, 0x6467666B), (0x02447, 0x6467676B), (0x02457, 0x6467686B), (0x02467, 0x6467696B),
  (0x02470, 0x64676B73), (0x02471, 0x64676B70), (0x02472, 0x64676B64), (0x02473, 0x64676B66), (0x02474, 0x64676B67),
  (0x02475, 0x64676B68), (0x02476, 0x64676B69), (0x02477, 0x64676B6B), (0x02507, 0x6468736B), (0x02517, 0x6468706B),
  (0x02527, 0x6468646B), (0x02537, 0x6468666B), (0x02547, 0x6468676B), (0x02557, 0x6468686B), (0x02567, 0x6468696B),
  (0x02570, 0x64686B73), (0x02571, 0x64686B70), (0x02572, 0x64686B64), (0x02573, 0x64686B66), (0x02574, 0x64686B67),
  (0x02575, 0x64686B68), (0x02576, 0x64686B69), (0x02577, 0x64686B6B), (0x02607, 0x6469736B), (0x02617, 0x6469706B),
  (0x02627, 0x6469646B), (0x02637, 0x6469666B), (0x02647, 0x6469676B), (0x02657, 0x6469686B), (0x02667, 0x6469696B),
  (0x02670, 0x64696B73), (0x02671, 0x64696B70), (0x02672, 0x64696B64), (0x02673, 0x64696B66), (0x02674, 0x64696B67),
  (0x02675, 0x64696B68), (0x02676, 0x64696B69), (0x02677, 0x64696B6B), (0x02700, 0x646B7373), (0x02701, 0x646B7370),
  (0x02702, 0x646B7364), (0x02703, 0x646B7366), (0x02704, 0x646B7367), (0x02705, 0x646B7368), (0x02706, 0x646B7369),
  (0x02707, 0x646B736B), (0x02710, 0x646B7073), (0x02711, 0x646B7070), (0x02712, 0x646B7064), (0x02713, 0x646B7066),
  (0x02714, 0x646B7067), (0x02715, 0x646B7068), (0x02716, 0x646B7069), (0x02717, 0x646B706B), (0x02720, 0x646B6473),
  (0x02721, 0x646B6470), (0x02722, 0x646B6464), (0x02723, 0x646B6466), (0x02724, 0x646B6467), (0x02725, 0x646B6468),
  (0x02726, 0x646B6469), (0x02727, 0x646B646B), (0x02730, 0x646B6673), (0x02731, 0x646B6670), (0x02732, 0x646B6664),
  (0x02733, 0x646B6666), (0x02734, 0x646B6667), (0x02735, 0x646B6668), (0x02736, 0x646B6669), (0x02737, 0x646B666B),
  (0x02740, 0x646B6773), (0x02741, 0x646B6770), (0x02742, 0x646B6764), (0x02743, 0x646B6766), (0x02744, 0x646B6767),
  (0x02745, 0x646B6768), (0x02746, 0x646B6769), (0x02747, 0x646B676B), (0x02750, 0x646B6873), (0x02751, 0x646B6870),
  (0x02752, 0x646B6864), (0x02753, 0x646B6866), (0x02754, 0x646B6867), (0x02755, 0x646B6868), (0x02756, 0x646B6869),
  (0x02757, 0x646B686B), (0x02760, 0x646B6973), (0x02761, 0x646B6970), (0x02762, 0x646B6964), (0x02763, 0x646B6966),
  (0x02764, 0x646B6967), (0x02765, 0x646B6968), (0x02766, 0x646B6969), (0x02767, 0x646B696B), (0x02770, 0x646B6B73),
  (0x02771, 0x646B6B70), (0x02772, 0x646B6B64), (0x02773, 0x646B6B66), (0x02774, 0x646B6B67), (0x02775, 0x646B6B68),
  (0x02776, 0x646B6B69), (0x02777, 0x646B6B6B), (0x03007, 0x6673736B), (0x03017, 0x6673706B), (0x03027, 0x6673646B),
  (0x03037, 0x6673666B), (0x03047, 0x6673676B), (0x03057, 0x6673686B), (0x03067, 0x6673696B), (0x03070, 0x66736B73),
  (0x03071, 0x66736B70), (0x03072, 0x66736B64), (0x03073, 0x66736B66), (0x03074, 0x66736B67), (0x03075, 0x66736B68),
  (0x03076, 0x66736B69), (0x03077, 0x66736B6B), (0x03107, 0x6670736B), (0x03117, 0x6670706B), (0x03127, 0x6670646B),
  (0x03137, 0x6670666B), (0x03147, 0x6670676B), (0x03157, 0x6670686B), (0x03167, 0x6670696B), (0x03170, 0x66706B73),
  (0x03171, 0x66706B70), (0x03172, 0x66706B64), (0x03173, 0x66706B66), (0x03174, 0x66706B67), (0x03175, 0x66706B68),
  (0x03176, 0x66706B69), (0x03177, 0x66706B6B), (0x03207, 0x6664736B), (0x03217, 0x6664706B), (0x03227, 0x6664646B),
  (0x03237, 0x6664666B), (0x03247, 0x6664676B), (0x03257, 0x6664686B), (0x03267, 0x6664696B), (0x03270, 0x66646B73),
  (0x03271, 0x66646B70), (0x03272, 0x66646B64), (0x03273, 0x66646B66), (0x03274, 0x66646B67), (0x03275, 0x66646B68),
  (0x03276, 0x66646B69), (0x03277, 0x66646B6B), (0x03307, 0x6666736B), (0x03317, 0x6666706B), (0x03327, 0x6666646B),
  (0x03337, 0x6666666B), (0x03347, 0x6666676B), (0x03357, 0x6666686B), (0x03367, 0x6666696B), (0x03370, 0x66666B73),
  (0x03371, 0x66666B70), (0x03372, 0x66666B64), (0x03373, 0x66666B66), (0x03374, 0x66666B67), (0x03375, 0x66666B68),
  (0x03376, 0x66666B69), (0x03377, 0x66666B6B), (0x03407, 0x6667736B), (0x03417, 0x6667706B), (0x03427, 0x6667646B),
  (0x03437, 0x6667666B), (0x03447, 0x6667676B), (0x03457, 0x6667686B), (0x03467, 0x6667696B), (0x03470, 0x66676B73),
  (0x03471, 0x66676B70), (0x03472, 0x66676B64), (0x03473, 0x66676B66), (0x03474, 0x66676B67), (0x03475, 0x66676B68),
  (0x03476, 0x66676B69), (0x03477, 0x66676B6B), (0x03507, 0x6668736B), (0x03517, 0x6668706B), (0x03527, 0x6668646B),
  (0x03537, 0x6668666B), (0x03547, 0x6668676B), (0x03557, 0x6668686B), (0x03567, 0x6668696B), (0x03570, 0x66686B73),
  (0x03571, 0x66686B70), (0x03572, 0x66686B64), (0x03573, 0x66686B66), (0x03574, 0x66686B67), (0x03575, 0x66686B68),
  (0x03576, 0x66686B69), (0x03577, 0x66686B6B), (0x03607, 0x6669736B), (0x03617, 0x6669706B), (0x03627, 0x6669646B),
  (0x03637, 0x6669666B), (0x03647, 0x6669676B), (0x03657, 0x6669686B), (0x03667, 0x6669696B), (0x03670, 0x66696B73),
  (0x03671, 0x66696B70), (0x03672, 0x66696B64), (0x03673, 0x66696B66), (0x03674, 0x66696B67), (0x03675, 0x66696B68),
  (0x03676, 0x66696B69), (0x03677, 0x66696B6B), (0x03700, 0x666B7373), (0x03701, 0x666B7370), (0x03702, 0x666B7364),
  (0x03703, 0x666B7366), (0x03704, 0x666B7367), (0x03705, 0x666B7368), (0x03706, 0x666B7369), (0x03707, 0x666B736B),
  (0x03710, 0x666B7073), (0x03711, 0x666B7070), (0x03712, 0x666B7064), (0x03713, 0x666B7066), (0x03714, 0x666B7067),
  (0x03715, 0x666B7068), (0x03716, 0x666B7069), (0x03717, 0x666B706B), (0x03720, 0x666B6473), (0x03721, 0x666B6470),
  (0x03722, 0x666B6464), (0x03723, 0x666B6466), (0x03724, 0x666B6467), (0x03725, 0x666B6468), (0x03726, 0x666B6469),
  (0x03727, 0x666B646B), (0x03730, 0x666B6673), (0x03731, 0x666B6670), (0x03732, 0x666B6664), (0x03733, 0x666B6666),
  (0x03734, 0x666B6667), (0x03735, 0x666B6668), (0x03736, 0x666B6669), (0x03737, 0x666B666B), (0x03740, 0x666B6773),
  (0x03741, 0x666B6770), (0x03742, 0x666B6764), (0x03743, 0x666B6766), (0x03744, 0x666B6767), (0x03745, 0x666B6768),
  (0x03746, 0x666B6769), (0x03747, 0x666B676B), (0x03750, 0x666B6873), (0x03751, 0x666B6870), (0x03752, 0x666B6864),
  (0x03753, 0x666B6866), (0x03754, 0x666B6867), (0x03755, 0x666B6868), (0x03756, 0x666B6869), (0x03757, 0x666B686B),
  (0x03760, 0x666B6973), (0x03761, 0x666B6970), (0x03762, 0x666B6964), (0x03763, 0x666B6966), (0x03764, 0x666B6967),
  (0x03765, 0x666B6968), (0x03766, 0x666B6969), (0x03767, 0x666B696B), (0x03770, 0x666B6B73), (0x03771, 0x666B6B70),
  (0x03772, 0x666B6B64), (0x03773, 0x666B6B66), (0x03774, 0x666B6B67), (0x03775, 0x666B6B68), (0x03776, 0x666B6B69),
  (0x03777, 0x666B6B6B), (0x04007, 0x6773736B), (0x04017, 0x6773706B), (0x04027, 0x6773646B), (0x04037, 0x6773666B),
  (0x04047, 0x6773676B), (0x04057, 0x6773686B), (0x04067, 0x6773696B), (0x04070, 0x67736B73), (0x04071, 0x67736B70),
  (0x04072, 0x67736B64), (0x04073, 0x67736B66), (0x04074, 0x67736B67), (0x04075, 0x67736B68), (0x04076, 0x67736B69),
  (0x04077, 0x67736B6B), (0x04107, 0x6770736B), (0x04117, 0x6770706B), (0x04127, 0x6770646B), (0x04137, 0x6770666B),
  (0x04147, 0x6770676B), (0x04157, 0x6770686B), (0x04167, 0x6770696B), (0x04170, 0x67706B73), (0x04171, 0x67706B70)]

def init0_7_2 : List (ℕ × ℕ) := [
  (0x04172, 0x67706B64), (0x04173, 0x67706B66), (0x04174, 0x67706B67), (0x04175, 0x67706B68), (0x04176, 0x67706B69),
  (0x04177, 0x67706B6B), (0x04207, 0x6764736B), (0x04217, 0x6764706B), (0x04227, 0x6764646B), (0x04237, 0x6764666B),
  (0x04247, 0x6764676B), (0x04257, 0x6764686B), (0x04267, 0x6764696B), (0x04270, 0x67646B73), (0x04271, 0x67646B70),
  (0x04272, 0x67646B64), (0x04273, 0x67646B66), (0x04274, 0x67646B67), (0x04275, 0x67646B68), (0x04276, 0x67646B69),
  (0x04277, 0x67646B6B), (0x04307, 0x6766736B), (0x04317, 0x6766706B), (0x04327, 0x6766646B), (0x04337, 0x6766666B),
  (0x04347, 0x6766676B), (0x04357, 0x6766686B), (0x04367, 0x6766696B), (0x04370, 0x67666B73), (0x04371, 0x67666B70),
  (0x04372, 0x67666B64), (0x04373, 0x67666B66), (0x04374, 0x67666B67), (0x04375, 0x67666B68), (0x04376, 0x67666B69),
  (0x04377, 0x67666B6B), (0x04407, 0x6767736B), (0x04417, 0x6767706B), (0x04427, 0x6767646B), (0x04437, 0x6767666B),
  (0x04447, 0x6767676B), (0x04457, 0x6767686B), (0x04467, 0x6767696B), (0x04470, 0x67676B73), (0x04471, 0x67676B70),
  (0x04472, 0x67676B64), (0x04473, 0x67676B66), (0x04474, 0x67676B67), (0x04475, 0x67676B68), (0x04476, 0x67676B69),
  (0x04477, 0x67676B6B), (0x04507, 0x6768736B), (0x04517, 0x6768706B), (0x04527, 0x6768646B), (0x04537, 0x6768666B),
  (0x04547, 0x6768676B), (0x04557, 0x6768686B), (0x04567, 0x6768696B), (0x04570, 0x67686B73), (0x04571, 0x67686B70),
  (0x04572, 0x67686B64), (0x04573, 0x67686B66), (0x04574, 0x67686B67), (0x04575, 0x67686B68), (0x04576, 0x67686B69),
  (0x04577, 0x67686B6B), (0x04607, 0x6769736B), (0x04617, 0x6769706B), (0x04627, 0x6769646B), (0x04637, 0x6769666B),
  (0x04647, 0x6769676B), (0x04657, 0x6769686B), (0x04667, 0x6769696B), (0x04670, 0x67696B73), (0x04671, 0x67696B70),
  (0x04672, 0x67696B64), (0x04673, 0x67696B66), (0x04674, 0x67696B67), (0x04675, 0x67696B68), (0x04676, 0x67696B69),
  (0x04677, 0x67696B6B), (0x04700, 0x676B7373), (0x04701, 0x676B7370), (0x04702, 0x676B7364), (0x04703, 0x676B7366),
  (0x04704, 0x676B7367), (0x04705, 0x676B7368), (0x04706, 0x676B7369), (0x04707, 0x676B736B), (0x04710, 0x676B7073),
  (0x04711, 0x676B7070), (0x04712, 0x676B7064), (0x04713, 0x676B7066), (0x04714, 0x676B7067), (0x04715, 0x676B7068),
  (0x04716, 0x676B7069), (0x04717, 0x676B706B), (0x04720, 0x676B6473), (0x04721, 0x676B6470), (0x04722, 0x676B6464),
  (0x04723, 0x676B6466), (0x04724, 0x676B6467), (0x04725, 0x676B6468), (0x04726, 0x676B6469), (0x04727, 0x676B646B),
  (0x04730, 0x676B6673), (0x04731, 0x676B6670), (0x04732, 0x676B6664), (0x04733, 0x676B6666), (0x04734, 0x676B6667),
  (0x04735, 0x676B6668), (0x04736, 0x676B6669), (0x04737, 0x676B666B), (0x04740, 0x676B6773), (0x04741, 0x676B6770),
  (0x04742, 0x676B6764), (0x04743, 0x676B6766), (0x04744, 0x676B6767), (0x04745, 0x676B6768), (0x04746, 0x676B6769),
  (0x04747, 0x676B676B), (0x04750, 0x676B6873), (0x04751, 0x676B6870), (0x04752, 0x676B6864), (0x04753, 0x676B6866),
  (0x04754, 0x676B6867), (0x04755, 0x676B6868), (0x04756, 0x676B6869), (0x04757, 0x676B686B), (0x04760, 0x676B6973),
  (0x04761, 0x676B6970), (0x04762, 0x676B6964), (0x04763, 0x676B6966), (0x04764, 0x676B6967), (0x04765, 0x676B6968),
  (0x04766, 0x676B6969), (0x04767, 0x676B696B), (0x04770, 0x676B6B73), (0x04771, 0x676B6B70), (0x04772, 0x676B6B64),
  (0x04773, 0x676B6B66), (0x04774, 0x676B6B67), (0x04775, 0x676B6B68), (0x04776, 0x676B6B69), (0x04777, 0x676B6B6B),
  (0x05007, 0x6873736B), (0x05017, 0x6873706B), (0x05027, 0x6873646B), (0x05037, 0x6873666B), (0x05047, 0x6873676B),
  (0x05057, 0x6873686B), (0x05067, 0x6873696B), (0x05070, 0x68736B73), (0x05071, 0x68736B70), (0x05072, 0x68736B64),
  (0x05073, 0x68736B66), (0x05074, 0x68736B67), (0x05075, 0x68736B68), (0x05076, 0x68736B69), (0x05077, 0x68736B6B),
  (0x05107, 0x6870736B), (0x05117, 0x6870706B), (0x05127, 0x6870646B), (0x05137, 0x6870666B), (0x05147, 0x6870676B),
  (0x05157, 0x6870686B), (0x05167, 0x6870696B), (0x05170, 0x68706B73), (0x05171, 0x68706B70), (0x05172, 0x68706B64),
  (0x05173, 0x68706B66), (0x05174, 0x68706B67), (0x05175, 0x68706B68), (0x05176, 0x68706B69), (0x05177, 0x68706B6B),
  (0x05207, 0x6864736B), (0x05217, 0x6864706B), (0x05227, 0x6864646B), (0x05237, 0x6864666B), (0x05247, 0x6864676B),
  (0x05257, 0x6864686B), (0x05267, 0x6864696B), (0x05270, 0x68646B73), (0x05271, 0x68646B70), (0x05272, 0x68646B64),
  (0x05273, 0x68646B66), (0x05274, 0x68646B67), (0x05275, 0x68646B68), (0x05276, 0x68646B69), (0x05277, 0x68646B6B),
  (0x05307, 0x6866736B), (0x05317, 0x6866706B), (0x05327, 0x6866646B), (0x05337, 0x6866666B), (0x05347, 0x6866676B),
  (0x05357, 0x6866686B), (0x05367, 0x6866696B), (0x05370, 0x68666B73), (0x05371, 0x68666B70), (0x05372, 0x68666B64),
  (0x05373, 0x68666B66), (0x05374, 0x68666B67), (0x05375, 0x68666B68), (0x05376, 0x68666B69), (0x05377, 0x68666B6B),
  (0x05407, 0x6867736B), (0x05417, 0x6867706B), (0x05427, 0x6867646B), (0x05437, 0x6867666B), (0x05447, 0x6867676B),
  (0x05457, 0x6867686B), (0x05467, 0x6867696B), (0x05470, 0x68676B73), (0x05471, 0x68676B70), (0x05472, 0x68676B64),
  (0x05473, 0x68676B66), (0x05474, 0x68676B67), (0x05475, 0x68676B68), (0x05476, 0x68676B69), (0x05477, 0x68676B6B),
  (0x05507, 0x6868736B), (0x05517, 0x6868706B), (0x05527, 0x6868646B), (0x05537, 0x6868666B), (0x05547, 0x6868676B),
  (0x05557, 0x6868686B), (0x05567, 0x6868696B), (0x05570, 0x68686B73), (0x05571, 0x68686B70), (0x05572, 0x68686B64),
  (0x05573, 0x68686B66), (0x05574, 0x68686B67), (0x05575, 0x68686B68), (0x05576, 0x68686B69), (0x05577, 0x68686B6B),
  (0x05607, 0x6869736B), (0x05617, 0x6869706B), (0x05627, 0x6869646B), (0x05637, 0x6869666B), (0x05647, 0x6869676B),
  (0x05657, 0x6869686B), (0x05667, 0x6869696B), (0x05670, 0x68696B73), (0x05671, 0x68696B70), (0x05672, 0x68696B64),
  (0x05673, 0x68696B66), (0x05674, 0x68696B67), (0x05675, 0x68696B68), (0x05676, 0x68696B69), (0x05677, 0x68696B6B),
  (0x05700, 0x686B7373), (0x05701, 0x686B7370), (0x05702, 0x686B7364), (0x05703, 0x686B7366), (0x05704, 0x686B7367),
  (0x05705, 0x686B7368), (0x05706, 0x686B7369), (0x05707, 0x686B736B), (0x05710, 0x686B7073), (0x05711, 0x686B7070),
  (0x05712, 0x686B7064), (0x05713, 0x686B7066), (0x05714, 0x686B7067), (0x05715, 0x686B7068), (0x05716, 0x686B7069),
  (0x05717, 0x686B706B), (0x05720, 0x686B6473), (0x05721, 0x686B6470), (0x05722, 0x686B6464), (0x05723, 0x686B6466),
  (0x05724, 0x686B6467), (0x05725, 0x686B6468), (0x05726, 0x686B6469), (0x05727, 0x686B646B), (0x05730, 0x686B6673),
  (0x05731, 0x686B6670), (0x05732, 0x686B6664), (0x05733, 0x686B6666), (0x05734, 0x686B6667), (0x05735, 0x686B6668),
  (0x05736, 0x686B6669), (0x05737, 0x686B666B), (0x05740, 0x686B6773), (0x05741, 0x686B6770), (0x05742, 0x686B6764),
  (0x05743, 0x686B6766), (0x05744, 0x686B6767), (0x05745, 0x686B6768), (0x05746, 0x686B6769), (0x05747, 0x686B676B),
  (0x05750, 0x686B6873), (0x05751, 0x686B6870), (0x05752, 0x686B6864), (0x05753, 0x686B6866), (0x05754, 0x686B6867),
  (0x05755, 0x686B6868), (0x05756, 0x686B6869), (0x05757, 0x686B686B), (0x05760, 0x686B6973), (0x05761, 0x686B6970),
  (0x05762, 0x686B6964), (0x05763, 0x686B6966), (0x05764, 0x686B6967), (0x05765, 0x686B6968), (0x05766, 0x686B6969),
  (0x05767, 0x686B696B), (0x05770, 0x686B6B73), (0x05771, 0x686B6B70), (0x05772, 0x686B6B64), (0x05773, 0x686B6B66),
  (0x05774, 0x686B6B67), (0x05775, 0x686B6B68), (0x05776, 0x686B6B69), (0x05777, 0x686B6B6B), (0x06007, 0x6973736B),
  (0x06017, 0x6973706B), (0x06027, 0x6973646B), (0x06037, 0x6973666B), (0x06047, 0x6973676B), (0x06057, 0x6973686B),
  (0x06067, 0x6973696B), (0x06070, 0x69736B73), (0x06071, 0x69736B70), (0x06072, 0x69736B64), (0x06073, 0x69736B66),
  (0x06074, 0x69736B67), (0x06075, 0x69736B68), (0x06076, 0x69736B69), (0x06077, 0x69736B6B), (0x06107, 0x6970736B),
  (0x06117, 0x6970706B), (0x06127, 0x6970646B), (0x06137, 0x6970666B), (0x06147, 0x6970676B), (0x06157, 0x6970686B),
  (0x06167, 0x6970696B), (0x06170, 0x69706B73), (0x06171, 0x69706B70), (0x06172, 0x69706B64), (0x06173, 0x69706B66),
  (0x06174, 0x69706B67), (0x06175, 0x69706B68), (0x06176, 0x69706B69), (0x06177, 0x69706B6B), (0x06207, 0x6964736B),
  (0x06217, 0x6964706B), (0x06227, 0x6964646B), (0x06237, 0x6964666B), (0x06247, 0x6964676B), (0x06257, 0x6964686B)]

def init0_7_3 : List (ℕ × ℕ) := [
  (0x06267, 0x6964696B), (0x06270, 0x69646B73), (0x06271, 0x69646B70), (0x06272, 0x69646B64), (0x06273, 0x69646B66),
  (0x06274, 0x69646B67), (0x06275, 0x69646B68), (0x06276, 0x69646B69), (0x06277, 0x69646B6B), (0x06307, 0x6966736B),
  (0x06317, 0x6966706B), (0x06327, 0x6966646B), (0x06337, 0x6966666B), (0x06347, 0x6966676B), (0x06357, 0x6966686B),
  (0x06367, 0x6966696B), (0x06370, 0x69666B73), (0x06371, 0x69666B70), (0x06372, 0x69666B64), (0x06373, 0x69666B66),
  (0x06374, 0x69666B67), (0x06375, 0x69666B68), (0x06376, 0x69666B69), (0x06377, 0x69666B6B), (0x06407, 0x6967736B),
  (0x06417, 0x6967706B), (0x06427, 0x6967646B), (0x06437, 0x6967666B), (0x06447, 0x6967676B), (0x06457, 0x6967686B),
  (0x06467, 0x6967696B), (0x06470, 0x69676B73), (0x06471, 0x69676B70), (0x06472, 0x69676B64), (0x06473, 0x69676B66),
  (0x06474, 0x69676B67), (0x06475, 0x69676B68), (0x06476, 0x69676B69), (0x06477, 0x69676B6B), (0x06507, 0x6968736B),
  (0x06517, 0x6968706B), (0x06527, 0x6968646B), (0x06537, 0x6968666B), (0x06547, 0x6968676B), (0x06557, 0x6968686B),
  (0x06567, 0x6968696B), (0x06570, 0x69686B73), (0x06571, 0x69686B70), (0x06572, 0x69686B64), (0x06573, 0x69686B66),
  (0x06574, 0x69686B67), (0x06575, 0x69686B68), (0x06576, 0x69686B69), (0x06577, 0x69686B6B), (0x06607, 0x6969736B),
  (0x06617, 0x6969706B), (0x06627, 0x6969646B), (0x06637, 0x6969666B), (0x06647, 0x6969676B), (0x06657, 0x6969686B),
  (0x06667, 0x6969696B), (0x06670, 0x69696B73), (0x06671, 0x69696B70), (0x06672, 0x69696B64), (0x06673, 0x69696B66),
  (0x06674, 0x69696B67), (0x06675, 0x69696B68), (0x06676, 0x69696B69), (0x06677, 0x69696B6B), (0x06700, 0x696B7373),
  (0x06701, 0x696B7370), (0x06702, 0x696B7364), (0x06703, 0x696B7366), (0x06704, 0x696B7367), (0x06705, 0x696B7368),
  (0x06706, 0x696B7369), (0x06707, 0x696B736B), (0x06710, 0x696B7073), (0x06711, 0x696B7070), (0x06712, 0x696B7064),
  (0x06713, 0x696B7066), (0x06714, 0x696B7067), (0x06715, 0x696B7068), (0x06716, 0x696B7069), (0x06717, 0x696B706B),
  (0x06720, 0x696B6473), (0x06721, 0x696B6470), (0x06722, 0x696B6464), (0x06723, 0x696B6466), (0x06724, 0x696B6467),
  (0x06725, 0x696B6468), (0x06726, 0x696B6469), (0x06727, 0x696B646B), (0x06730, 0x696B6673), (0x06731, 0x696B6670),
  (0x06732, 0x696B6664), (0x06733, 0x696B6666), (0x06734, 0x696B6667), (0x06735, 0x696B6668), (0x06736, 0x696B6669),
  (0x06737, 0x696B666B), (0x06740, 0x696B6773), (0x06741, 0x696B6770), (0x06742, 0x696B6764), (0x06743, 0x696B6766),
  (0x06744, 0x696B6767), (0x06745, 0x696B6768), (0x06746, 0x696B6769), (0x06747, 0x696B676B), (0x06750, 0x696B6873),
  (0x06751, 0x696B6870), (0x06752, 0x696B6864), (0x06753, 0x696B6866), (0x06754, 0x696B6867), (0x06755, 0x696B6868),
  (0x06756, 0x696B6869), (0x06757, 0x696B686B), (0x06760, 0x696B6973), (0x06761, 0x696B6970), (0x06762, 0x696B6964),
  (0x06763, 0x696B6966), (0x06764, 0x696B6967), (0x06765, 0x696B6968), (0x06766, 0x696B6969), (0x06767, 0x696B696B),
  (0x06770, 0x696B6B73), (0x06771, 0x696B6B70), (0x06772, 0x696B6B64), (0x06773, 0x696B6B66), (0x06774, 0x696B6B67),
  (0x06775, 0x696B6B68), (0x06776, 0x696B6B69), (0x06777, 0x696B6B6B), (0x07000, 0x6B737373), (0x07001, 0x6B737370),
  (0x07002, 0x6B737364), (0x07003, 0x6B737366), (0x07004, 0x6B737367), (0x07005, 0x6B737368), (0x07006, 0x6B737369),
  (0x07007, 0x6B73736B), (0x07010, 0x6B737073), (0x07011, 0x6B737070), (0x07012, 0x6B737064), (0x07013, 0x6B737066),
  (0x07014, 0x6B737067), (0x07015, 0x6B737068), (0x07016, 0x6B737069), (0x07017, 0x6B73706B), (0x07020, 0x6B736473),
  (0x07021, 0x6B736470), (0x07022, 0x6B736464), (0x07023, 0x6B736466), (0x07024, 0x6B736467), (0x07025, 0x6B736468),
  (0x07026, 0x6B736469), (0x07027, 0x6B73646B), (0x07030, 0x6B736673), (0x07031, 0x6B736670), (0x07032, 0x6B736664),
  (0x07033, 0x6B736666), (0x07034, 0x6B736667), (0x07035, 0x6B736668), (0x07036, 0x6B736669), (0x07037, 0x6B73666B),
  (0x07040, 0x6B736773), (0x07041, 0x6B736770), (0x07042, 0x6B736764), (0x07043, 0x6B736766), (0x07044, 0x6B736767),
  (0x07045, 0x6B736768), (0x07046, 0x6B736769), (0x07047, 0x6B73676B), (0x07050, 0x6B736873), (0x07051, 0x6B736870),
  (0x07052, 0x6B736864), (0x07053, 0x6B736866), (0x07054, 0x6B736867), (0x07055, 0x6B736868), (0x07056, 0x6B736869),
  (0x07057, 0x6B73686B), (0x07060, 0x6B736973), (0x07061, 0x6B736970), (0x07062, 0x6B736964), (0x07063, 0x6B736966),
  (0x07064, 0x6B736967), (0x07065, 0x6B736968), (0x07066, 0x6B736969), (0x07067, 0x6B73696B), (0x07070, 0x6B736B73),
  (0x07071, 0x6B736B70), (0x07072, 0x6B736B64), (0x07073, 0x6B736B66), (0x07074, 0x6B736B67), (0x07075, 0x6B736B68),
  (0x07076, 0x6B736B69), (0x07077, 0x6B736B6B), (0x07100, 0x6B707373), (0x07101, 0x6B707370), (0x07102, 0x6B707364),
  (0x07103, 0x6B707366), (0x07104, 0x6B707367), (0x07105, 0x6B707368), (0x07106, 0x6B707369), (0x07107, 0x6B70736B),
  (0x07110, 0x6B707073), (0x07111, 0x6B707070), (0x07112, 0x6B707064), (0x07113, 0x6B707066), (0x07114, 0x6B707067),
  (0x07115, 0x6B707068), (0x07116, 0x6B707069), (0x07117, 0x6B70706B), (0x07120, 0x6B706473), (0x07121, 0x6B706470),
  (0x07122, 0x6B706464), (0x07123, 0x6B706466), (0x07124, 0x6B706467), (0x07125, 0x6B706468), (0x07126, 0x6B706469),
  (0x07127, 0x6B70646B), (0x07130, 0x6B706673), (0x07131, 0x6B706670), (0x07132, 0x6B706664), (0x07133, 0x6B706666),
  (0x07134, 0x6B706667), (0x07135, 0x6B706668), (0x07136, 0x6B706669), (0x07137, 0x6B70666B), (0x07140, 0x6B706773),
  (0x07141, 0x6B706770), (0x07142, 0x6B706764), (0x07143, 0x6B706766), (0x07144, 0x6B706767), (0x07145, 0x6B706768),
  (0x07146, 0x6B706769), (0x07147, 0x6B70676B), (0x07150, 0x6B706873), (0x07151, 0x6B706870), (0x07152, 0x6B706864),
  (0x07153, 0x6B706866), (0x07154, 0x6B706867), (0x07155, 0x6B706868), (0x07156, 0x6B706869), (0x07157, 0x6B70686B),
  (0x07160, 0x6B706973), (0x07161, 0x6B706970), (0x07162, 0x6B706964), (0x07163, 0x6B706966), (0x07164, 0x6B706967),
  (0x07165, 0x6B706968), (0x07166, 0x6B706969), (0x07167, 0x6B70696B), (0x07170, 0x6B706B73), (0x07171, 0x6B706B70),
  (0x07172, 0x6B706B64), (0x07173, 0x6B706B66), (0x07174, 0x6B706B67), (0x07175, 0x6B706B68), (0x07176, 0x6B706B69),
  (0x07177, 0x6B706B6B), (0x07200, 0x6B647373), (0x07201, 0x6B647370), (0x07202, 0x6B647364), (0x07203, 0x6B647366),
  (0x07204, 0x6B647367), (0x07205, 0x6B647368), (0x07206, 0x6B647369), (0x07207, 0x6B64736B), (0x07210, 0x6B647073),
  (0x07211, 0x6B647070), (0x07212, 0x6B647064), (0x07213, 0x6B647066), (0x07214, 0x6B647067), (0x07215, 0x6B647068),
  (0x07216, 0x6B647069), (0x07217, 0x6B64706B), (0x07220, 0x6B646473), (0x07221, 0x6B646470), (0x07222, 0x6B646464),
  (0x07223, 0x6B646466), (0x07224, 0x6B646467), (0x07225, 0x6B646468), (0x07226, 0x6B646469), (0x07227, 0x6B64646B),
  (0x07230, 0x6B646673), (0x07231, 0x6B646670), (0x07232, 0x6B646664), (0x07233, 0x6B646666), (0x07234, 0x6B646667),
  (0x07235, 0x6B646668), (0x07236, 0x6B646669), (0x07237, 0x6B64666B), (0x07240, 0x6B646773), (0x07241, 0x6B646770),
  (0x07242, 0x6B646764), (0x07243, 0x6B646766), (0x07244, 0x6B646767), (0x07245, 0x6B646768), (0x07246, 0x6B646769),
  (0x07247, 0x6B64676B), (0x07250, 0x6B646873), (0x07251, 0x6B646870), (0x07252, 0x6B646864), (0x07253, 0x6B646866),
  (0x07254, 0x6B646867), (0x07255, 0x6B646868), (0x07256, 0x6B646869), (0x07257, 0x6B64686B), (0x07260, 0x6B646973),
  (0x07261, 0x6B646970), (0x07262, 0x6B646964), (0x07263, 0x6B646966), (0x07264, 0x6B646967), (0x07265, 0x6B646968),
  (0x07266, 0x6B646969), (0x07267, 0x6B64696B), (0x07270, 0x6B646B73), (0x07271, 0x6B646B70), (0x07272, 0x6B646B64),
  (0x07273, 0x6B646B66), (0x07274, 0x6B646B67), (0x07275, 0x6B646B68), (0x07276, 0x6B646B69), (0x07277, 0x6B646B6B),
  (0x07300, 0x6B667373), (0x07301, 0x6B667370), (0x07302, 0x6B667364), (0x07303, 0x6B667366), (0x07304, 0x6B667367),
  (0x07305, 0x6B667368), (0x07306, 0x6B667369), (0x07307, 0x6B66736B), (0x07310, 0x6B667073), (0x07311, 0x6B667070),
  (0x07312, 0x6B667064), (0x07313, 0x6B667066), (0x07314, 0x6B667067), (0x07315, 0x6B667068), (0x07316, 0x6B667069),
  (0x07317, 0x6B66706B), (0x07320, 0x6B666473), (0x07321, 0x6B666470), (0x07322, 0x6B666464), (0x07323, 0x6B666466),
  (0x07324, 0x6B666467), (0x07325, 0x6B666468), (0x07326, 0x6B666469), (0x07327, 0x6B66646B), (0x07330, 0x6B666673)]

def init0_7_4 : List (ℕ × ℕ) := [
  (0x07331, 0x6B666670), (0x07332, 0x6B666664), (0x07333, 0x6B666666), (0x07334, 0x6B666667), (0x07335, 0x6B666668),
  (0x07336, 0x6B666669), (0x07337, 0x6B66666B), (0x07340, 0x6B666773), (0x07341, 0x6B666770), (0x07342, 0x6B666764),
  (0x07343, 0x6B666766), (0x07344, 0x6B666767), (0x07345, 0x6B666768), (0x07346, 0x6B666769), (0x07347, 0x6B66676B),
  (0x07350, 0x6B666873), (0x07351, 0x6B666870), (0x07352, 0x6B666864), (0x07353, 0x6B666866), (0x07354, 0x6B666867),
  (0x07355, 0x6B666868), (0x07356, 0x6B666869), (0x07357, 0x6B66686B), (0x07360, 0x6B666973), (0x07361, 0x6B666970),
  (0x07362, 0x6B666964), (0x07363, 0x6B666966), (0x07364, 0x6B666967), (0x07365, 0x6B666968), (0x07366, 0x6B666969),
  (0x07367, 0x6B66696B), (0x07370, 0x6B666B73), (0x07371, 0x6B666B70), (0x07372, 0x6B666B64), (0x07373, 0x6B666B66),
  (0x07374, 0x6B666B67), (0x07375, 0x6B666B68), (0x07376, 0x6B666B69), (0x07377, 0x6B666B6B), (0x07400, 0x6B677373),
  (0x07401, 0x6B677370), (0x07402, 0x6B677364), (0x07403, 0x6B677366), (0x07404, 0x6B677367), (0x07405, 0x6B677368),
  (0x07406, 0x6B677369), (0x07407, 0x6B67736B), (0x07410, 0x6B677073), (0x07411, 0x6B677070), (0x07412, 0x6B677064),
  (0x07413, 0x6B677066), (0x07414, 0x6B677067), (0x07415, 0x6B677068), (0x07416, 0x6B677069), (0x07417, 0x6B67706B),
  (0x07420, 0x6B676473), (0x07421, 0x6B676470), (0x07422, 0x6B676464), (0x07423, 0x6B676466), (0x07424, 0x6B676467),
  (0x07425, 0x6B676468), (0x07426, 0x6B676469), (0x07427, 0x6B67646B), (0x07430, 0x6B676673), (0x07431, 0x6B676670),
  (0x07432, 0x6B676664), (0x07433, 0x6B676666), (0x07434, 0x6B676667), (0x07435, 0x6B676668), (0x07436, 0x6B676669),
  (0x07437, 0x6B67666B), (0x07440, 0x6B676773), (0x07441, 0x6B676770), (0x07442, 0x6B676764), (0x07443, 0x6B676766),
  (0x07444, 0x6B676767), (0x07445, 0x6B676768), (0x07446, 0x6B676769), (0x07447, 0x6B67676B), (0x07450, 0x6B676873),
  (0x07451, 0x6B676870), (0x07452, 0x6B676864), (0x07453, 0x6B676866), (0x07454, 0x6B676867), (0x07455, 0x6B676868),
  (0x07456, 0x6B676869), (0x07457, 0x6B67686B), (0x07460, 0x6B676973), (0x07461, 0x6B676970), (0x07462, 0x6B676964),
  (0x07463, 0x6B676966), (0x07464, 0x6B676967), (0x07465, 0x6B676968), (0x07466, 0x6B676969), (0x07467, 0x6B67696B),
  (0x07470, 0x6B676B73), (0x07471, 0x6B676B70), (0x07472, 0x6B676B64), (0x07473, 0x6B676B66), (0x07474, 0x6B676B67),
  (0x07475, 0x6B676B68), (0x07476, 0x6B676B69), (0x07477, 0x6B676B6B), (0x07500, 0x6B687373), (0x07501, 0x6B687370),
  (0x07502, 0x6B687364), (0x07503, 0x6B687366), (0x07504, 0x6B687367), (0x07505, 0x6B687368), (0x07506, 0x6B687369),
  (0x07507, 0x6B68736B), (0x07510, 0x6B687073), (0x07511, 0x6B687070), (0x07512, 0x6B687064), (0x07513, 0x6B687066),
  (0x07514, 0x6B687067), (0x07515, 0x6B687068), (0x07516, 0x6B687069), (0x07517, 0x6B68706B), (0x07520, 0x6B686473),
  (0x07521, 0x6B686470), (0x07522, 0x6B686464), (0x07523, 0x6B686466), (0x07524, 0x6B686467), (0x07525, 0x6B686468),
  (0x07526, 0x6B686469), (0x07527, 0x6B68646B), (0x07530, 0x6B686673), (0x07531, 0x6B686670), (0x07532, 0x6B686664),
  (0x07533, 0x6B686666), (0x07534, 0x6B686667), (0x07535, 0x6B686668), (0x07536, 0x6B686669), (0x07537, 0x6B68666B),
  (0x07540, 0x6B686773), (0x07541, 0x6B686770), (0x07542, 0x6B686764), (0x07543, 0x6B686766), (0x07544, 0x6B686767),
  (0x07545, 0x6B686768), (0x07546, 0x6B686769), (0x07547, 0x6B68676B), (0x07550, 0x6B686873), (0x07551, 0x6B686870),
  (0x07552, 0x6B686864), (0x07553, 0x6B686866), (0x07554, 0x6B686867), (0x07555, 0x6B686868), (0x07556, 0x6B686869),
  (0x07557, 0x6B68686B), (0x07560, 0x6B686973), (0x07561, 0x6B686970), (0x07562, 0x6B686964), (0x07563, 0x6B686966),
  (0x07564, 0x6B686967), (0x07565, 0x6B686968), (0x07566, 0x6B686969), (0x07567, 0x6B68696B), (0x07570, 0x6B686B73),
  (0x07571, 0x6B686B70), (0x07572, 0x6B686B64), (0x07573, 0x6B686B66), (0x07574, 0x6B686B67), (0x07575, 0x6B686B68),
  (0x07576, 0x6B686B69), (0x07577, 0x6B686B6B), (0x07600, 0x6B697373), (0x07601, 0x6B697370), (0x07602, 0x6B697364),
  (0x07603, 0x6B697366), (0x07604, 0x6B697367), (0x07605, 0x6B697368), (0x07606, 0x6B697369), (0x07607, 0x6B69736B),
  (0x07610, 0x6B697073), (0x07611, 0x6B697070), (0x07612, 0x6B697064), (0x07613, 0x6B697066), (0x07614, 0x6B697067),
  (0x07615, 0x6B697068), (0x07616, 0x6B697069), (0x07617, 0x6B69706B), (0x07620, 0x6B696473), (0x07621, 0x6B696470),
  (0x07622, 0x6B696464), (0x07623, 0x6B696466), (0x07624, 0x6B696467), (0x07625, 0x6B696468), (0x07626, 0x6B696469),
  (0x07627, 0x6B69646B), (0x07630, 0x6B696673), (0x07631, 0x6B696670), (0x07632, 0x6B696664), (0x07633, 0x6B696666),
  (0x07634, 0x6B696667), (0x07635, 0x6B696668), (0x07636, 0x6B696669), (0x07637, 0x6B69666B), (0x07640, 0x6B696773),
  (0x07641, 0x6B696770), (0x07642, 0x6B696764), (0x07643, 0x6B696766), (0x07644, 0x6B696767), (0x07645, 0x6B696768),
  (0x07646, 0x6B696769), (0x07647, 0x6B69676B), (0x07650, 0x6B696873), (0x07651, 0x6B696870), (0x07652, 0x6B696864),
  (0x07653, 0x6B696866), (0x07654, 0x6B696867), (0x07655, 0x6B696868), (0x07656, 0x6B696869), (0x07657, 0x6B69686B),
  (0x07660, 0x6B696973), (0x07661, 0x6B696970), (0x07662, 0x6B696964), (0x07663, 0x6B696966), (0x07664, 0x6B696967),
  (0x07665, 0x6B696968), (0x07666, 0x6B696969), (0x07667, 0x6B69696B), (0x07670, 0x6B696B73), (0x07671, 0x6B696B70),
  (0x07672, 0x6B696B64), (0x07673, 0x6B696B66), (0x07674, 0x6B696B67), (0x07675, 0x6B696B68), (0x07676, 0x6B696B69),
  (0x07677, 0x6B696B6B), (0x07700, 0x6B6B7373), (0x07701, 0x6B6B7370), (0x07702, 0x6B6B7364), (0x07703, 0x6B6B7366),
  (0x07704, 0x6B6B7367), (0x07705, 0x6B6B7368), (0x07706, 0x6B6B7369), (0x07707, 0x6B6B736B), (0x07710, 0x6B6B7073),
  (0x07711, 0x6B6B7070), (0x07712, 0x6B6B7064), (0x07713, 0x6B6B7066), (0x07714, 0x6B6B7067), (0x07715, 0x6B6B7068),
  (0x07716, 0x6B6B7069), (0x07717, 0x6B6B706B), (0x07720, 0x6B6B6473), (0x07721, 0x6B6B6470), (0x07722, 0x6B6B6464),
  (0x07723, 0x6B6B6466), (0x07724, 0x6B6B6467), (0x07725, 0x6B6B6468), (0x07726, 0x6B6B6469), (0x07727, 0x6B6B646B),
  (0x07730, 0x6B6B6673), (0x07731, 0x6B6B6670), (0x07732, 0x6B6B6664), (0x07733, 0x6B6B6666), (0x07734, 0x6B6B6667),
  (0x07735, 0x6B6B6668), (0x07736, 0x6B6B6669), (0x07737, 0x6B6B666B), (0x07740, 0x6B6B6773), (0x07741, 0x6B6B6770),
  (0x07742, 0x6B6B6764), (0x07743, 0x6B6B6766), (0x07744, 0x6B6B6767), (0x07745, 0x6B6B6768), (0x07746, 0x6B6B6769),
  (0x07747, 0x6B6B676B), (0x07750, 0x6B6B6873), (0x07751, 0x6B6B6870), (0x07752, 0x6B6B6864), (0x07753, 0x6B6B6866),
  (0x07754, 0x6B6B6867), (0x07755, 0x6B6B6868), (0x07756, 0x6B6B6869), (0x07757, 0x6B6B686B), (0x07760, 0x6B6B6973),
  (0x07761, 0x6B6B6970), (0x07762, 0x6B6B6964), (0x07763, 0x6B6B6966), (0x07764, 0x6B6B6967), (0x07765, 0x6B6B6968),
  (0x07766, 0x6B6B6969), (0x07767, 0x6B6B696B), (0x07770, 0x6B6B6B73), (0x07771, 0x6B6B6B70), (0x07772, 0x6B6B6B64),
  (0x07773, 0x6B6B6B66), (0x07774, 0x6B6B6B67), (0x07775, 0x6B6B6B68), (0x07776, 0x6B6B6B69), (0x07777, 0x6B6B6B6B)]

def init0_7 : List (ℕ × ℕ) :=
  init0_7_0 ++ init0_7_1 ++ init0_7_2 ++ init0_7_3 ++ init0_7_4

/-- All blocks of `ostei_init.c`. -/
def init0 : List (ℕ × List (ℕ × ℕ)) := [
  (0, init0_0),
  (1, init0_1),
  (2, init0_2),
  (3, init0_3),
  (4, init0_4),
  (5, init0_5),
  (6, init0_6),
  (7, init0_7)]

def init1_0 : List (ℕ × ℕ) := [
  (0x10000, 0x73737373)]

def init1_1 : List (ℕ × ℕ) := [
  (0x10001, 0x73737370), (0x10010, 0x73737073), (0x10011, 0x73737070), (0x10100, 0x73707373), (0x10101, 0x73707370),
  (0x10110, 0x73707073), (0x10111, 0x73707070), (0x11000, 0x70737373), (0x11001, 0x70737370), (0x11010, 0x70737073),
  (0x11011, 0x70737070), (0x11100, 0x70707373), (0x11101, 0x70707370), (0x11110, 0x70707073), (0x11111, 0x70707070)]

def init1_2 : List (ℕ × ℕ) := [
  (0x10002, 0x73737364), (0x10012, 0x73737064), (0x10020, 0x73736473), (0x10021, 0x73736470), (0x10022, 0x73736464),
  (0x10102, 0x73707364), (0x10112, 0x73707064), (0x10120, 0x73706473), (0x10121, 0x73706470), (0x10122, 0x73706464),
  (0x10200, 0x73647373), (0x10201, 0x73647370), (0x10202, 0x73647364), (0x10210, 0x73647073), (0x10211, 0x73647070),
  (0x10212, 0x73647064), (0x10220, 0x73646473), (0x10221, 0x73646470), (0x10222, 0x73646464), (0x11002, 0x70737364),
  (0x11012, 0x70737064), (0x11020, 0x70736473), (0x11021, 0x70736470), (0x11022, 0x70736464), (0x11102, 0x70707364),
  (0x11112, 0x70707064), (0x11120, 0x70706473), (0x11121, 0x70706470), (0x11122, 0x70706464), (0x11200, 0x70647373),
  (0x11201, 0x70647370), (0x11202, 0x70647364), (0x11210, 0x70647073), (0x11211, 0x70647070), (0x11212, 0x70647064),
  (0x11220, 0x70646473), (0x11221, 0x70646470), (0x11222, 0x70646464), (0x12000, 0x64737373), (0x12001, 0x64737370),
  (0x12002, 0x64737364), (0x12010, 0x64737073), (0x12011, 0x64737070), (0x12012, 0x64737064), (0x12020, 0x64736473),
  (0x12021, 0x64736470), (0x12022, 0x64736464), (0x12100, 0x64707373), (0x12101, 0x64707370), (0x12102, 0x64707364),
  (0x12110, 0x64707073), (0x12111, 0x64707070), (0x12112, 0x64707064), (0x12120, 0x64706473), (0x12121, 0x64706470),
  (0x12122, 0x64706464), (0x12200, 0x64647373), (0x12201, 0x64647370), (0x12202, 0x64647364), (0x12210, 0x64647073),
  (0x12211, 0x64647070), (0x12212, 0x64647064), (0x12220, 0x64646473), (0x12221, 0x64646470), (0x12222, 0x64646464)]

def init1_3 : List (ℕ × ℕ) := [
  (0x10003, 0x73737366), (0x10013, 0x73737066), (0x10023, 0x73736466), (0x10030, 0x73736673), (0x10031, 0x73736670),
  (0x10032, 0x73736664), (0x10033, 0x73736666), (0x10103, 0x73707366), (0x10113, 0x73707066), (0x10123, 0x73706466),
  (0x10130, 0x73706673), (0x10131, 0x73706670), (0x10132, 0x73706664), (0x10133, 0x73706666), (0x10203, 0x73647366),
  (0x10213, 0x73647066), (0x10223, 0x73646466), (0x10230, 0x73646673), (0x10231, 0x73646670), (0x10232, 0x73646664),
  (0x10233, 0x73646666), (0x10300, 0x73667373), (0x10301, 0x73667370), (0x10302, 0x73667364), (0x10303, 0x73667366),
  (0x10310, 0x73667073), (0x10311, 0x73667070), (0x10312, 0x73667064), (0x10313, 0x73667066), (0x10320, 0x73666473),
  (0x10321, 0x73666470), (0x10322, 0x73666464), (0x10323, 0x73666466), (0x10330, 0x73666673), (0x10331, 0x73666670),
  (0x10332, 0x73666664), (0x10333, 0x73666666), (0x11003, 0x70737366), (0x11013, 0x70737066), (0x11023, 0x70736466),
  (0x11030, 0x70736673), (0x11031, 0x70736670), (0x11032, 0x70736664), (0x11033, 0x70736666), (0x11103, 0x70707366),
  (0x11113, 0x70707066), (0x11123, 0x70706466), (0x11130, 0x70706673), (0x11131, 0x70706670), (0x11132, 0x70706664),
  (0x11133, 0x70706666), (0x11203, 0x70647366), (0x11213, 0x70647066), (0x11223, 0x70646466), (0x11230, 0x70646673),
  (0x11231, 0x70646670), (0x11232, 0x70646664), (0x11233, 0x70646666), (0x11300, 0x70667373), (0x11301, 0x70667370),
  (0x11302, 0x70667364), (0x11303, 0x70667366), (0x11310, 0x70667073), (0x11311, 0x70667070), (0x11312, 0x70667064),
  (0x11313, 0x70667066), (0x11320, 0x70666473), (0x11321, 0x70666470), (0x11322, 0x70666464), (0x11323, 0x70666466),
  (0x11330, 0x70666673), (0x11331, 0x70666670), (0x11332, 0x70666664), (0x11333, 0x70666666), (0x12003, 0x64737366),
  (0x12013, 0x64737066), (0x12023, 0x64736466), (0x12030, 0x64736673), (0x12031, 0x64736670), (0x12032, 0x64736664),
  (0x12033, 0x64736666), (0x12103, 0x64707366), (0x12113, 0x64707066), (0x12123, 0x64706466), (0x12130, 0x64706673),
  (0x12131, 0x64706670), (0x12132, 0x64706664), (0x12133, 0x64706666), (0x12203, 0x64647366), (0x12213, 0x64647066),
  (0x12223, 0x64646466), (0x12230, 0x64646673), (0x12231, 0x64646670), (0x12232, 0x64646664), (0x12233, 0x64646666),
  (0x12300, 0x64667373), (0x12301, 0x64667370), (0x12302, 0x64667364), (0x12303, 0x64667366), (0x12310, 0x64667073),
  (0x12311, 0x64667070), (0x12312, 0x64667064), (0x12313, 0x64667066), (0x12320, 0x64666473), (0x12321, 0x64666470),
  (0x12322, 0x64666464), (0x12323, 0x64666466), (0x12330, 0x64666673), (0x12331, 0x64666670), (0x12332, 0x64666664),
  (0x12333, 0x64666666), (0x13000, 0x66737373), (0x13001, 0x66737370), (0x13002, 0x66737364), (0x13003, 0x66737366),
  (0x13010, 0x66737073), (0x13011, 0x66737070), (0x13012, 0x66737064), (0x13013, 0x66737066), (0x13020, 0x66736473),
  (0x13021, 0x66736470), (0x13022, 0x66736464), (0x13023, 0x66736466), (0x13030, 0x66736673), (0x13031, 0x66736670),
  (0x13032, 0x66736664), (0x13033, 0x66736666), (0x13100, 0x66707373), (0x13101, 0x66707370), (0x13102, 0x66707364),
  (0x13103, 0x66707366), (0x13110, 0x66707073), (0x13111, 0x66707070), (0x13112, 0x66707064), (0x13113, 0x66707066),
  (0x13120, 0x66706473), (0x13121, 0x66706470), (0x13122, 0x66706464), (0x13123, 0x66706466), (0x13130, 0x66706673),
  (0x13131, 0x66706670), (0x13132, 0x66706664), (0x13133, 0x66706666), (0x13200, 0x66647373), (0x13201, 0x66647370),
  (0x13202, 0x66647364), (0x13203, 0x66647366), (0x13210, 0x66647073), (0x13211, 0x66647070), (0x13212, 0x66647064),
  (0x13213, 0x66647066), (0x13220, 0x66646473), (0x13221, 0x66646470), (0x13222, 0x66646464), (0x13223, 0x66646466),
  (0x13230, 0x66646673), (0x13231, 0x66646670), (0x13232, 0x66646664), (0x13233, 0x66646666), (0x13300, 0x66667373),
  (0x13301, 0x66667370), (0x13302, 0x66667364), (0x13303, 0x66667366), (0x13310, 0x66667073), (0x13311, 0x66667070),
  (0x13312, 0x66667064), (0x13313, 0x66667066), (0x13320, 0x66666473), (0x13321, 0x66666470), (0x13322, 0x66666464),
  (0x13323, 0x66666466), (0x13330, 0x66666673), (0x13331, 0x66666670), (0x13332, 0x66666664), (0x13333, 0x66666666)]

def init1_4_0 : List (ℕ × ℕ) := [
  (0x10004, 0x73737367), (0x10014, 0x73737067), (0x10024, 0x73736467), (0x10034, 0x73736667), (0x10040, 0x73736773),
  (0x10041, 0x73736770), (0x10042, 0x73736764), (0x10043, 0x73736766), (0x10044, 0x73736767), (0x10104, 0x73707367),
  (0x10114, 0x73707067), (0x10124, 0x73706467), (0x10134, 0x73706667), (0x10140, 0x73706773), (0x10141, 0x73706770),
  (0x10142, 0x73706764), (0x10143, 0x73706766), (0x10144, 0x73706767), (0x10204, 0x73647367), (0x10214, 0x73647067),
  (0x10224, 0x73646467), (0x10234, 0x73646667), (0x10240, 0x73646773), (0x10241, 0x73646770), (0x10242, 0x73646764),
  (0x10243, 0x73646766), (0x10244, 0x73646767), (0x10304, 0x73667367), (0x10314, 0x73667067), (0x10324, 0x73666467),
  (0x10334, 0x73666667), (0x10340, 0x73666773), (0x10341, 0x73666770), (0x10342, 0x73666764), (0x10343, 0x73666766),
  (0x10344, 0x73666767), (0x10400, 0x73677373), (0x10401, 0x73677370), (0x10402, 0x73677364), (0x10403, 0x73677366),
  (0x10404, 0x73677367), (0x10410, 0x73677073), (0x10411, 0x73677070), (0x10412, 0x73677064), (0x10413, 0x73677066),
  (0x10414, 0x73677067), (0x10420, 0x73676473), (0x10421, 0x73676470), (0x10422, 0x73676464), (0x10423, 0x73676466),
  (0x10424, 0x73676467), (0x10430, 0x73676673), (0x10431, 0x73676670), (0x10432, 0x73676664), (0x10433, 0x73676666),
  (0x10434, 0x73676667), (0x10440, 0x73676773), (0x10441, 0x73676770), (0x10442, 0x73676764), (0x10443, 0x73676766),
  (0x10444, 0x73676767), (0x11004, 0x70737367), (0x11014, 0x70737067), (0x11024, 0x70736467), (0x11034, 0x70736667),
  (0x11040, 0x70736773), (0x11041, 0x70736770), (0x11042, 0x70736764), (0x11043, 0x70736766), (0x11044, 0x70736767),
  (0x11104, 0x70707367), (0x11114, 0x70707067), (0x11124, 0x70706467), (0x11134, 0x70706667), (0x11140, 0x70706773),
  (0x11141, 0x70706770), (0x11142, 0x70706764), (0x11143, 0x70706766), (0x11144, 0x70706767), (0x11204, 0x70647367),
  (0x11214, 0x70647067), (0x11224, 0x70646467), (0x11234, 0x70646667), (0x11240, 0x70646773), (0x11241, 0x70646770),
  (0x11242, 0x70646764), (0x11243, 0x70646766), (0x11244, 0x70646767), (0x11304, 0x70667367), (0x11314, 0x70667067),
  (0x11324, 0x70666467), (0x11334, 0x70666667), (0x11340, 0x70666773), (0x11341, 0x70666770), (0x11342, 0x70666764),
  (0x11343, 0x70666766), (0x11344, 0x70666767), (0x11400, 0x70677373), (0x11401, 0x70677370), (0x11402, 0x70677364),
  (0x11403, 0x70677366), (0x11404, 0x70677367), (0x11410, 0x70677073), (0x11411, 0x70677070), (0x11412, 0x70677064),
  (0x11413, 0x70677066), (0x11414, 0x70677067), (0x11420, 0x70676473), (0x11421, 0x70676470), (0x11422, 0x70676464),
  (0x11423, 0x70676466), (0x11424, 0x70676467), (0x11430, 0x70676673), (0x11431, 0x70676670), (0x11432, 0x70676664),
  (0x11433, 0x70676666), (0x11434, 0x70676667), (0x11440, 0x70676773), (0x11441, 0x70676770), (0x11442, 0x70676764),
  (0x11443, 0x70676766), (0x11444, 0x70676767), (0x12004, 0x64737367), (0x12014, 0x64737067), (0x12024, 0x64736467),
  (0x12034, 0x64736667), (0x12040, 0x64736773), (0x12041, 0x64736770), (0x12042, 0x64736764), (0x12043, 0x64736766),
  (0x12044, 0x64736767), (0x12104, 0x64707367), (0x12114, 0x64707067), (0x12124, 0x64706467), (0x12134, 0x64706667),
  (0x12140, 0x64706773), (0x12141, 0x64706770), (0x12142, 0x64706764), (0x12143, 0x64706766), (0x12144, 0x64706767),
  (0x12204, 0x64647367), (0x12214, 0x64647067), (0x12224, 0x64646467), (0x12234, 0x64646667), (0x12240, 0x64646773),
  (0x12241, 0x64646770), (0x12242, 0x64646764), (0x12243, 0x64646766), (0x12244, 0x64646767), (0x12304, 0x64667367),
  (0x12314, 0x64667067), (0x12324, 0x64666467), (0x12334, 0x64666667), (0x12340, 0x64666773), (0x12341, 0x64666770),
  (0x12342, 0x64666764), (0x12343, 0x64666766), (0x12344, 0x64666767), (0x12400, 0x64677373), (0x12401, 0x64677370),
  (0x12402, 0x64677364), (0x12403, 0x64677366), (0x12404, 0x64677367), (0x12410, 0x64677073), (0x12411, 0x64677070),
  (0x12412, 0x64677064), (0x12413, 0x64677066), (0x12414, 0x64677067), (0x12420, 0x64676473), (0x12421, 0x64676470),
  (0x12422, 0x64676464), (0x12423, 0x64676466), (0x12424, 0x64676467), (0x12430, 0x64676673), (0x12431, 0x64676670),
  (0x12432, 0x64676664), (0x12433, 0x64676666), (0x12434, 0x64676667), (0x12440, 0x64676773), (0x12441, 0x64676770),
  (0x12442, 0x64676764), (0x12443, 0x64676766), (0x12444, 0x64676767), (0x13004, 0x66737367), (0x13014, 0x66737067),
  (0x13024, 0x66736467), (0x13034, 0x66736667), (0x13040, 0x66736773), (0x13041, 0x66736770), (0x13042, 0x66736764),
  (0x13043, 0x66736766), (0x13044, 0x66736767), (0x13104, 0x66707367), (0x13114, 0x66707067), (0x13124, 0x66706467),
  (0x13134, 0x66706667), (0x13140, 0x66706773), (0x13141, 0x66706770), (0x13142, 0x66706764), (0x13143, 0x66706766),
  (0x13144, 0x66706767), (0x13204, 0x66647367), (0x13214, 0x66647067), (0x13224, 0x66646467), (0x13234, 0x66646667),
  (0x13240, 0x66646773), (0x13241, 0x66646770), (0x13242, 0x66646764), (0x13243, 0x66646766), (0x13244, 0x66646767),
  (0x13304, 0x66667367), (0x13314, 0x66667067), (0x13324, 0x66666467), (0x13334, 0x66666667), (0x13340, 0x66666773),
  (0x13341, 0x66666770), (0x13342, 0x66666764), (0x13343, 0x66666766), (0x13344, 0x66666767), (0x13400, 0x66677373),
  (0x13401, 0x66677370), (0x13402, 0x66677364), (0x13403, 0x66677366), (0x13404, 0x66677367), (0x13410, 0x66677073),
  (0x13411, 0x66677070), (0x13412, 0x66677064), (0x13413, 0x66677066), (0x13414, 0x66677067), (0x13420, 0x66676473),
  (0x13421, 0x66676470), (0x13422, 0x66676464), (0x13423, 0x66676466), (0x13424, 0x66676467), (0x13430, 0x66676673),
  (0x13431, 0x66676670), (0x13432, 0x66676664), (0x13433, 0x66676666), (0x13434, 0x66676667), (0x13440, 0x66676773),
  (0x13441, 0x66676770), (0x13442, 0x66676764), (0x13443, 0x66676766), (0x13444, 0x66676767), (0x14000, 0x67737373),
  (0x14001, 0x67737370), (0x14002, 0x67737364), (0x14003, 0x67737366), (0x14004, 0x67737367), (0x14010, 0x67737073),
  (0x14011, 0x67737070), (0x14012, 0x67737064), (0x14013, 0x67737066), (0x14014, 0x67737067), (0x14020, 0x67736473),
  (0x14021, 0x67736470), (0x14022, 0x67736464), (0x14023, 0x67736466), (0x14024, 0x67736467), (0x14030, 0x67736673),
  (0x14031, 0x67736670), (0x14032, 0x67736664), (0x14033, 0x67736666), (0x14034, 0x67736667), (0x14040, 0x67736773),
  (0x14041, 0x67736770), (0x14042, 0x67736764), (0x14043, 0x67736766), (0x14044, 0x67736767), (0x14100, 0x67707373),
  (0x14101, 0x67707370), (0x14102, 0x67707364), (0x14103, 0x67707366), (0x14104, 0x67707367), (0x14110, 0x67707073),
  (0x14111, 0x67707070), (0x14112, 0x67707064), (0x14113, 0x67707066), (0x14114, 0x67707067), (0x14120, 0x67706473),
  (0x14121, 0x67706470), (0x14122, 0x67706464), (0x14123, 0x67706466), (0x14124, 0x67706467), (0x14130, 0x67706673),
  (0x14131, 0x67706670), (0x14132, 0x67706664), (0x14133, 0x67706666), (0x14134, 0x67706667), (0x14140, 0x67706773),
  (0x14141, 0x67706770), (0x14142, 0x67706764), (0x14143, 0x67706766), (0x14144, 0x67706767), (0x14200, 0x67647373),
  (0x14201, 0x67647370), (0x14202, 0x67647364), (0x14203, 0x67647366), (0x14204, 0x67647367), (0x14210, 0x67647073),
  (0x14211, 0x67647070), (0x14212, 0x67647064), (0x14213, 0x67647066), (0x14214, 0x67647067), (0x14220, 0x67646473),
  (0x14221, 0x67646470), (0x14222, 0x67646464), (0x14223, 0x67646466), (0x14224, 0x67646467), (0x14230, 0x67646673),
  (0x14231, 0x67646670), (0x14232, 0x67646664), (0x14233, 0x67646666), (0x14234, 0x67646667), (0x14240, 0x67646773),
  (0x14241, 0x67646770), (0x14242, 0x67646764), (0x14243, 0x67646766), (0x14244, 0x67646767), (0x14300, 0x67667373),
  (0x14301, 0x67667370), (0x14302, 0x67667364), (0x14303, 0x67667366), (0x14304, 0x67667367), (0x14310, 0x67667073),
  (0x14311, 0x67667070), (0x14312, 0x67667064), (0x14313, 0x67667066), (0x14314, 0x67667067), (0x14320, 0x67666473),
  (0x14321, 0x67666470), (0x14322, 0x67666464), (0x14323, 0x67666466), (0x14324, 0x67666467), (0x14330, 0x67666673),
  (0x14331, 0x67666670), (0x14332, 0x67666664), (0x14333, 0x67666666), (0x14334, 0x67666667), (0x14340, 0x67666773),
  (0x14341, 0x67666770), (0x14342, 0x67666764), (0x14343, 0x67666766), (0x14344, 0x67666767), (0x14400, 0x67677373),
  (0x14401, 0x67677370), (0x14402, 0x67677364), (0x14403, 0x67677366), (0x14404, 0x67677367), (0x14410, 0x67677073)]

def init1_4_1 : List (ℕ × ℕ) := [
  (0x14411, 0x67677070), (0x14412, 0x67677064), (0x14413, 0x67677066), (0x14414, 0x67677067), (0x14420, 0x67676473),
  (0x14421, 0x67676470), (0x14422, 0x67676464), (0x14423, 0x67676466), (0x14424, 0x67676467), (0x14430, 0x67676673),
  (0x14431, 0x67676670), (0x14432, 0x67676664), (0x14433, 0x67676666), (0x14434, 0x67676667), (0x14440, 0x67676773),
  (0x14441, 0x67676770), (0x14442, 0x67676764), (0x14443, 0x67676766), (0x14444, 0x67676767)]

def init1_4 : List (ℕ × ℕ) :=
  init1_4_0 ++ init1_4_1

def init1_5_0 : List (ℕ × ℕ) := [
  (0x10005, 0x73737368), (0x10015, 0x73737068), (0x10025, 0x73736468), (0x10035, 0x73736668), (0x10045, 0x73736768),
  (0x10050, 0x73736873), (0x10051, 0x73736870), (0x10052, 0x73736864), (0x10053, 0x73736866), (0x10054, 0x73736867),
  (0x10055, 0x73736868), (0x10105, 0x73707368), (0x10115, 0x73707068), (0x10125, 0x73706468), (0x10135, 0x73706668),
  (0x10145, 0x73706768), (0x10150, 0x73706873), (0x10151, 0x73706870), (0x10152, 0x73706864), (0x10153, 0x73706866),
  (0x10154, 0x73706867), (0x10155, 0x73706868), (0x10205, 0x73647368), (0x10215, 0x73647068), (0x10225, 0x73646468),
  (0x10235, 0x73646668), (0x10245, 0x73646768), (0x10250, 0x73646873), (0x10251, 0x73646870), (0x10252, 0x73646864),
  (0x10253, 0x73646866), (0x10254, 0x73646867), (0x10255, 0x73646868), (0x10305, 0x73667368), (0x10315, 0x73667068),
  (0x10325, 0x73666468), (0x10335, 0x73666668), (0x10345, 0x73666768), (0x10350, 0x73666873), (0x10351, 0x73666870),
  (0x10352, 0x73666864), (0x10353, 0x73666866), (0x10354, 0x73666867), (0x10355, 0x73666868), (0x10405, 0x73677368),
  (0x10415, 0x73677068), (0x10425, 0x73676468), (0x10435, 0x73676668), (0x10445, 0x73676768), (0x10450, 0x73676873),
  (0x10451, 0x73676870), (0x10452, 0x73676864), (0x10453, 0x73676866), (0x10454, 0x73676867), (0x10455, 0x73676868),
  (0x10500, 0x73687373), (0x10501, 0x73687370), (0x10502, 0x73687364), (0x10503, 0x73687366), (0x10504, 0x73687367),
  (0x10505, 0x73687368), (0x10510, 0x73687073), (0x10511, 0x73687070), (0x10512, 0x73687064), (0x10513, 0x73687066),
  (0x10514, 0x73687067), (0x10515, 0x73687068), (0x10520, 0x73686473), (0x10521, 0x73686470), (0x10522, 0x73686464),
  (0x10523, 0x73686466), (0x10524, 0x73686467), (0x10525, 0x73686468), (0x10530, 0x73686673), (0x10531, 0x73686670),
  (0x10532, 0x73686664), (0x10533, 0x73686666), (0x10534, 0x73686667), (0x10535, 0x73686668), (0x10540, 0x73686773),
  (0x10541, 0x73686770), (0x10542, 0x73686764), (0x10543, 0x73686766), (0x10544, 0x73686767), (0x10545, 0x73686768),
  (0x10550, 0x73686873), (0x10551, 0x73686870), (0x10552, 0x73686864), (0x10553, 0x73686866), (0x10554, 0x73686867),
  (0x10555, 0x73686868), (0x11005, 0x70737368), (0x11015, 0x70737068), (0x11025, 0x70736468), (0x11035, 0x70736668),
  (0x11045, 0x70736768), (0x11050, 0x70736873), (0x11051, 0x70736870), (0x11052, 0x70736864), (0x11053, 0x70736866),
  (0x11054, 0x70736867), (0x11055, 0x70736868), (0x11105, 0x70707368), (0x11115, 0x70707068), (0x11125, 0x70706468),
  (0x11135, 0x70706668), (0x11145, 0x70706768), (0x11150, 0x70706873), (0x11151, 0x70706870), (0x11152, 0x70706864),
  (0x11153, 0x70706866), (0x11154, 0x70706867), (0x11155, 0x70706868), (0x11205, 0x70647368), (0x11215, 0x70647068),
  (0x11225, 0x70646468), (0x11235, 0x70646668), (0x11245, 0x70646768), (0x11250, 0x70646873), (0x11251, 0x70646870),
  (0x11252, 0x70646864), (0x11253, 0x70646866), (0x11254, 0x70646867), (0x11255, 0x70646868), (0x11305, 0x70667368),
  (0x11315, 0x70667068), (0x11325, 0x70666468), (0x11335, 0x70666668), (0x11345, 0x70666768), (0x11350, 0x70666873),
  (0x11351, 0x70666870), (0x11352, 0x70666864), (0x11353, 0x70666866), (0x11354, 0x70666867), (0x11355, 0x70666868),
  (0x11405, 0x70677368), (0x11415, 0x70677068), (0x11425, 0x70676468), (0x11435, 0x70676668), (0x11445, 0x70676768),
  (0x11450, 0x70676873), (0x11451, 0x70676870), (0x11452, 0x70676864), (0x11453, 0x70676866), (0x11454, 0x70676867),
  (0x11455, 0x70676868), (0x11500, 0x70687373), (0x11501, 0x70687370), (0x11502, 0x70687364), (0x11503, 0x70687366),
  (0x11504, 0x70687367), (0x11505, 0x70687368), (0x11510, 0x70687073), (0x11511, 0x70687070), (0x11512, 0x70687064),
  (0x11513, 0x70687066), (0x11514, 0x70687067), (0x11515, 0x70687068), (0x11520, 0x70686473), (0x11521, 0x70686470),
  (0x11522, 0x70686464), (0x11523, 0x70686466), (0x11524, 0x70686467), (0x11525, 0x70686468), (0x11530, 0x70686673),
  (0x11531, 0x70686670), (0x11532, 0x70686664), (0x11533, 0x70686666), (0x11534, 0x70686667), (0x11535, 0x70686668),
  (0x11540, 0x70686773), (0x11541, 0x70686770), (0x11542, 0x70686764), (0x11543, 0x70686766), (0x11544, 0x70686767),
  (0x11545, 0x70686768), (0x11550, 0x70686873), (0x11551, 0x70686870), (0x11552, 0x70686864), (0x11553, 0x70686866),
  (0x11554, 0x70686867), (0x11555, 0x70686868), (0x12005, 0x64737368), (0x12015, 0x64737068), (0x12025, 0x64736468),
  (0x12035, 0x64736668), (0x12045, 0x64736768), (0x12050, 0x64736873), (0x12051, 0x64736870), (0x12052, 0x64736864),
  (0x12053, 0x64736866), (0x12054, 0x64736867), (0x12055, 0x64736868), (0x12105, 0x64707368), (0x12115, 0x64707068),
  (0x12125, 0x64706468), (0x12135, 0x64706668), (0x12145, 0x64706768), (0x12150, 0x64706873), (0x12151, 0x64706870),
  (0x12152, 0x64706864), (0x12153, 0x64706866), (0x12154, 0x64706867), (0x12155, 0x64706868), (0x12205, 0x64647368),
  (0x12215, 0x64647068), (0x12225, 0x64646468), (0x12235, 0x64646668), (0x12245, 0x64646768), (0x12250, 0x64646873),
  (0x12251, 0x64646870), (0x12252, 0x64646864), (0x12253, 0x64646866), (0x12254, 0x64646867), (0x12255, 0x64646868),
  (0x12305, 0x64667368), (0x12315, 0x64667068), (0x12325, 0x64666468), (0x12335, 0x64666668), (0x12345, 0x64666768),
  (0x12350, 0x64666873), (0x12351, 0x64666870), (0x12352, 0x64666864), (0x12353, 0x64666866), (0x12354, 0x64666867),
  (0x12355, 0x64666868), (0x12405, 0x64677368), (0x12415, 0x64677068), (0x12425, 0x64676468), (0x12435, 0x64676668),
  (0x12445, 0x64676768), (0x12450, 0x64676873), (0x12451, 0x64676870), (0x12452, 0x64676864), (0x12453, 0x64676866),
  (0x12454, 0x64676867), (0x12455, 0x64676868), (0x12500, 0x64687373), (0x12501, 0x64687370), (0x12502, 0x64687364),
  (0x12503, 0x64687366), (0x12504, 0x64687367), (0x12505, 0x64687368), (0x12510, 0x64687073), (0x12511, 0x64687070),
  (0x12512, 0x64687064), (0x12513, 0x64687066), (0x12514, 0x64687067), (0x12515, 0x64687068), (0x12520, 0x64686473),
  (0x12521, 0x64686470), (0x12522, 0x64686464), (0x12523, 0x64686466), (0x12524, 0x64686467), (0x12525, 0x64686468),
  (0x12530, 0x64686673), (0x12531, 0x64686670), (0x12532, 0x64686664), (0x12533, 0x64686666), (0x12534, 0x64686667),
  (0x12535, 0x64686668), (0x12540, 0x64686773), (0x12541, 0x64686770), (0x12542, 0x64686764), (0x12543, 0x64686766),
  (0x12544, 0x64686767), (0x12545, 0x64686768), (0x12550, 0x64686873), (0x12551, 0x64686870), (0x12552, 0x64686864),
  (0x12553, 0x64686866), (0x12554, 0x64686867), (0x12555, 0x64686868), (0x13005, 0x66737368), (0x13015, 0x66737068),
  (0x13025, 0x66736468), (0x13035, 0x66736668), (0x13045, 0x66736768), (0x13050, 0x66736873), (0x13051, 0x66736870),
  (0x13052, 0x66736864), (0x13053, 0x66736866), (0x13054, 0x66736867), (0x13055, 0x66736868), (0x13105, 0x66707368),
  (0x13115, 0x66707068), (0x13125, 0x66706468), (0x13135, 0x66706668), (0x13145, 0x66706768), (0x13150, 0x66706873),
  (0x13151, 0x66706870), (0x13152, 0x66706864), (0x13153, 0x66706866), (0x13154, 0x66706867), (0x13155, 0x66706868),
  (0x13205, 0x66647368), (0x13215, 0x66647068), (0x13225, 0x66646468), (0x13235, 0x66646668), (0x13245, 0x66646768),
  (0x13250, 0x66646873), (0x13251, 0x66646870), (0x13252, 0x66646864), (0x13253, 0x66646866), (0x13254, 0x66646867),
  (0x13255, 0x66646868), (0x13305, 0x66667368), (0x13315, 0x66667068), (0x13325, 0x66666468), (0x13335, 0x66666668),
  (0x13345, 0x66666768), (0x13350, 0x66666873), (0x13351, 0x66666870), (0x13352, 0x66666864), (0x13353, 0x66666866),
  (0x13354, 0x66666867), (0x13355, 0x66666868), (0x13405, 0x66677368), (0x13415, 0x66677068), (0x13425, 0x66676468),
  (0x13435, 0x66676668), (0x13445, 0x66676768), (0x13450, 0x66676873), (0x13451, 0x66676870), (0x13452, 0x66676864),
  (0x13453, 0x66676866), (0x13454, 0x66676867), (0x13455, 0x66676868), (0x13500, 0x66687373), (0x13501, 0x66687370),
  (0x13502, 0x66687364), (0x13503, 0x66687366), (0x13504, 0x66687367), (0x13505, 0x66687368), (0x13510, 0x66687073),
  (0x13511, 0x66687070), (0x13512, 0x66687064), (0x13513, 0x66687066), (0x13514, 0x66687067), (0x13515, 0x66687068),
  (0x13520, 0x66686473), (0x13521, 0x66686470), (0x13522, 0x66686464), (0x13523, 0x66686466), (0x13524, 0x66686467),
  (0x13525, 0x66686468), (0x13530, 0x66686673), (0x13531, 0x66686670), (0x13532, 0x66686664), (0x13533, 0x66686666)]

def init1_5_1 : List (ℕ × ℕ) := [
  (0x13534, 0x66686667), (0x13535, 0x66686668), (0x13540, 0x66686773), (0x13541, 0x66686770), (0x13542, 0x66686764),
  (0x13543, 0x66686766), (0x13544, 0x66686767), (0x13545, 0x66686768), (0x13550, 0x66686873), (0x13551, 0x66686870),
  (0x13552, 0x66686864), (0x13553, 0x66686866), (0x13554, 0x66686867), (0x13555, 0x66686868), (0x14005, 0x67737368),
  (0x14015, 0x67737068), (0x14025, 0x67736468), (0x14035, 0x67736668), (0x14045, 0x67736768), (0x14050, 0x67736873),
  (0x14051, 0x67736870), (0x14052, 0x67736864), (0x14053, 0x67736866), (0x14054, 0x67736867), (0x14055, 0x67736868),
  (0x14105, 0x67707368), (0x14115, 0x67707068), (0x14125, 0x67706468), (0x14135, 0x67706668), (0x14145, 0x67706768),
  (0x14150, 0x67706873), (0x14151, 0x67706870), (0x14152, 0x67706864), (0x14153, 0x67706866), (0x14154, 0x67706867),
  (0x14155, 0x67706868), (0x14205, 0x67647368), (0x14215, 0x67647068), (0x14225, 0x67646468), (0x14235, 0x67646668),
  (0x14245, 0x67646768), (0x14250, 0x67646873), (0x14251, 0x67646870), (0x14252, 0x67646864), (0x14253, 0x67646866),
  (0x14254, 0x67646867), (0x14255, 0x67646868), (0x14305, 0x67667368), (0x14315, 0x67667068), (0x14325, 0x67666468),
  (0x14335, 0x67666668), (0x14345, 0x67666768), (0x14350, 0x67666873), (0x14351, 0x67666870), (0x14352, 0x67666864),
  (0x14353, 0x67666866), (0x14354, 0x67666867), (0x14355, 0x67666868), (0x14405, 0x67677368), (0x14415, 0x67677068),
  (0x14425, 0x67676468), (0x14435, 0x67676668), (0x14445, 0x67676768), (0x14450, 0x67676873), (0x14451, 0x67676870),
  (0x14452, 0x67676864), (0x14453, 0x67676866), (0x14454, 0x67676867), (0x14455, 0x67676868), (0x14500, 0x67687373),
  (0x14501, 0x67687370), (0x14502, 0x67687364), (0x14503, 0x67687366), (0x14504, 0x67687367), (0x14505, 0x67687368),
  (0x14510, 0x67687073), (0x14511, 0x67687070), (0x14512, 0x67687064), (0x14513, 0x67687066), (0x14514, 0x67687067),
  (0x14515, 0x67687068), (0x14520, 0x67686473), (0x14521, 0x67686470), (0x14522, 0x67686464), (0x14523, 0x67686466),
  (0x14524, 0x67686467), (0x14525, 0x67686468), (0x14530, 0x67686673), (0x14531, 0x67686670), (0x14532, 0x67686664),
  (0x14533, 0x67686666), (0x14534, 0x67686667), (0x14535, 0x67686668), (0x14540, 0x67686773), (0x14541, 0x67686770),
  (0x14542, 0x67686764), (0x14543, 0x67686766), (0x14544, 0x67686767), (0x14545, 0x67686768), (0x14550, 0x67686873),
  (0x14551, 0x67686870), (0x14552, 0x67686864), (0x14553, 0x67686866), (0x14554, 0x67686867), (0x14555, 0x67686868),
  (0x15000, 0x68737373), (0x15001, 0x68737370), (0x15002, 0x68737364), (0x15003, 0x68737366), (0x15004, 0x68737367),
  (0x15005, 0x68737368), (0x15010, 0x68737073), (0x15011, 0x68737070), (0x15012, 0x68737064), (0x15013, 0x68737066),
  (0x15014, 0x68737067), (0x15015, 0x68737068), (0x15020, 0x68736473), (0x15021, 0x68736470), (0x15022, 0x68736464),
  (0x15023, 0x68736466), (0x15024, 0x68736467), (0x15025, 0x68736468), (0x15030, 0x68736673), (0x15031, 0x68736670),
  (0x15032, 0x68736664), (0x15033, 0x68736666), (0x15034, 0x68736667), (0x15035, 0x68736668), (0x15040, 0x68736773),
  (0x15041, 0x68736770), (0x15042, 0x68736764), (0x15043, 0x68736766), (0x15044, 0x68736767), (0x15045, 0x68736768),
  (0x15050, 0x68736873), (0x15051, 0x68736870), (0x15052, 0x68736864), (0x15053, 0x68736866), (0x15054, 0x68736867),
  (0x15055, 0x68736868), (0x15100, 0x68707373), (0x15101, 0x68707370), (0x15102, 0x68707364), (0x15103, 0x68707366),
  (0x15104, 0x68707367), (0x15105, 0x68707368), (0x15110, 0x68707073), (0x15111, 0x68707070), (0x15112, 0x68707064),
  (0x15113, 0x68707066), (0x15114, 0x68707067), (0x15115, 0x68707068), (0x15120, 0x68706473), (0x15121, 0x68706470),
  (0x15122, 0x68706464), (0x15123, 0x68706466), (0x15124, 0x68706467), (0x15125, 0x68706468), (0x15130, 0x68706673),
  (0x15131, 0x68706670), (0x15132, 0x68706664), (0x15133, 0x68706666), (0x15134, 0x68706667), (0x15135, 0x68706668),
  (0x15140, 0x68706773), (0x15141, 0x68706770), (0x15142, 0x68706764), (0x15143, 0x68706766), (0x15144, 0x68706767),
  (0x15145, 0x68706768), (0x15150, 0x68706873), (0x15151, 0x68706870), (0x15152, 0x68706864), (0x15153, 0x68706866),
  (0x15154, 0x68706867), (0x15155, 0x68706868), (0x15200, 0x68647373), (0x15201, 0x68647370), (0x15202, 0x68647364),
  (0x15203, 0x68647366), (0x15204, 0x68647367), (0x15205, 0x68647368), (0x15210, 0x68647073), (0x15211, 0x68647070),
  (0x15212, 0x68647064), (0x15213, 0x68647066), (0x15214, 0x68647067), (0x15215, 0x68647068), (0x15220, 0x68646473),
  (0x15221, 0x68646470), (0x15222, 0x68646464), (0x15223, 0x68646466), (0x15224, 0x68646467), (0x15225, 0x68646468),
  (0x15230, 0x68646673), (0x15231, 0x68646670), (0x15232, 0x68646664), (0x15233, 0x68646666), (0x15234, 0x68646667),
  (0x15235, 0x68646668), (0x15240, 0x68646773), (0x15241, 0x68646770), (0x15242, 0x68646764), (0x15243, 0x68646766),
  (0x15244, 0x68646767), (0x15245, 0x68646768), (0x15250, 0x68646873), (0x15251, 0x68646870), (0x15252, 0x68646864),
  (0x15253, 0x68646866), (0x15254, 0x68646867), (0x15255, 0x68646868), (0x15300, 0x68667373), (0x15301, 0x68667370),
  (0x15302, 0x68667364), (0x15303, 0x68667366), (0x15304, 0x68667367), (0x15305, 0x68667368), (0x15310, 0x68667073),
  (0x15311, 0x68667070), (0x15312, 0x68667064), (0x15313, 0x68667066), (0x15314, 0x68667067), (0x15315, 0x68667068),
  (0x15320, 0x68666473), (0x15321, 0x68666470), (0x15322, 0x68666464), (0x15323, 0x68666466), (0x15324, 0x68666467),
  (0x15325, 0x68666468), (0x15330, 0x68666673), (0x15331, 0x68666670), (0x15332, 0x68666664), (0x15333, 0x68666666),
  (0x15334, 0x68666667), (0x15335, 0x68666668), (0x15340, 0x68666773), (0x15341, 0x68666770), (0x15342, 0x68666764),
  (0x15343, 0x68666766), (0x15344, 0x68666767), (0x15345, 0x68666768), (0x15350, 0x68666873), (0x15351, 0x68666870),
  (0x15352, 0x68666864), (0x15353, 0x68666866), (0x15354, 0x68666867), (0x15355, 0x68666868), (0x15400, 0x68677373),
  (0x15401, 0x68677370), (0x15402, 0x68677364), (0x15403, 0x68677366), (0x15404, 0x68677367), (0x15405, 0x68677368),
  (0x15410, 0x68677073), (0x15411, 0x68677070), (0x15412, 0x68677064), (0x15413, 0x68677066), (0x15414, 0x68677067),
  (0x15415, 0x68677068), (0x15420, 0x68676473), (0x15421, 0x68676470), (0x15422, 0x68676464), (0x15423, 0x68676466),
  (0x15424, 0x68676467), (0x15425, 0x68676468), (0x15430, 0x68676673), (0x15431, 0x68676670), (0x15432, 0x68676664),
  (0x15433, 0x68676666), (0x15434, 0x68676667), (0x15435, 0x68676668), (0x15440, 0x68676773), (0x15441, 0x68676770),
  (0x15442, 0x68676764), (0x15443, 0x68676766), (0x15444, 0x68676767), (0x15445, 0x68676768), (0x15450, 0x68676873),
  (0x15451, 0x68676870), (0x15452, 0x68676864), (0x15453, 0x68676866), (0x15454, 0x68676867), (0x15455, 0x68676868),
  (0x15500, 0x68687373), (0x15501, 0x68687370), (0x15502, 0x68687364), (0x15503, 0x68687366), (0x15504, 0x68687367),
  (0x15505, 0x68687368), (0x15510, 0x68687073), (0x15511, 0x68687070), (0x15512, 0x68687064), (0x15513, 0x68687066),
  (0x15514, 0x68687067), (0x15515, 0x68687068), (0x15520, 0x68686473), (0x15521, 0x68686470), (0x15522, 0x68686464),
  (0x15523, 0x68686466), (0x15524, 0x68686467), (0x15525, 0x68686468), (0x15530, 0x68686673), (0x15531, 0x68686670),
  (0x15532, 0x68686664), (0x15533, 0x68686666), (0x15534, 0x68686667), (0x15535, 0x68686668), (0x15540, 0x68686773),
  (0x15541, 0x68686770), (0x15542, 0x68686764), (0x15543, 0x68686766), (0x15544, 0x68686767), (0x15545, 0x68686768),
  (0x15550, 0x68686873), (0x15551, 0x68686870), (0x15552, 0x68686864), (0x15553, 0x68686866), (0x15554, 0x68686867),
  (0x15555, 0x68686868)]

def init1_5 : List (ℕ × ℕ) :=
  init1_5_0 ++ init1_5_1

def init1_6_0 : List (ℕ × ℕ) := [
  (0x10006, 0x73737369), (0x10016, 0x73737069), (0x10026, 0x73736469), (0x10036, 0x73736669), (0x10046, 0x73736769),
  (0x10056, 0x73736869), (0x10060, 0x73736973), (0x10061, 0x73736970), (0x10062, 0x73736964), (0x10063, 0x73736966),
  (0x10064, 0x73736967), (0x10065, 0x73736968), (0x10066, 0x73736969), (0x10106, 0x73707369), (0x10116, 0x73707069),
  (0x10126, 0x73706469), (0x10136, 0x73706669), (0x10146, 0x73706769), (0x10156, 0x73706869), (0x10160, 0x73706973),
  (0x10161, 0x73706970), (0x10162, 0x73706964), (0x10163, 0x73706966), (0x10164, 0x73706967), (0x10165, 0x73706968),
  (0x10166, 0x73706969), (0x10206, 0x73647369), (0x10216, 0x73647069), (0x10226, 0x73646469), (0x10236, 0x73646669),
  (0x10246, 0x73646769), (0x10256, 0x73646869), (0x10260, 0x73646973), (0x10261, 0x73646970), (0x10262, 0x73646964),
  (0x10263, 0x73646966), (0x10264, 0x73646967), (0x10265, 0x73646968), (0x10266, 0x73646969), (0x10306, 0x73667369),
  (0x10316, 0x73667069), (0x10326, 0x73666469), (0x10336, 0x73666669), (0x10346, 0x73666769), (0x10356, 0x73666869),
  (0x10360, 0x73666973), (0x10361, 0x73666970), (0x10362, 0x73666964), (0x10363, 0x73666966), (0x10364, 0x73666967),
  (0x10365, 0x73666968), (0x10366, 0x73666969), (0x10406, 0x73677369), (0x10416, 0x73677069), (0x10426, 0x73676469),
  (0x10436, 0x73676669), (0x10446, 0x73676769), (0x10456, 0x73676869), (0x10460, 0x73676973), (0x10461, 0x73676970),
  (0x10462, 0x73676964), (0x10463, 0x73676966), (0x10464, 0x73676967), (0x10465, 0x73676968), (0x10466, 0x73676969),
  (0x10506, 0x73687369), (0x10516, 0x73687069), (0x10526, 0x73686469), (0x10536, 0x73686669), (0x10546, 0x73686769),
  (0x10556, 0x73686869), (0x10560, 0x73686973), (0x10561, 0x73686970), (0x10562, 0x73686964), (0x10563, 0x73686966),
  (0x10564, 0x73686967), (0x10565, 0x73686968), (0x10566, 0x73686969), (0x10600, 0x73697373), (0x10601, 0x73697370),
  (0x10602, 0x73697364), (0x10603, 0x73697366), (0x10604, 0x73697367), (0x10605, 0x73697368), (0x10606, 0x73697369),
  (0x10610, 0x73697073), (0x10611, 0x73697070), (0x10612, 0x73697064), (0x10613, 0x73697066), (0x10614, 0x73697067),
  (0x10615, 0x73697068), (0x10616, 0x73697069), (0x10620, 0x73696473), (0x10621, 0x73696470), (0x10622, 0x73696464),
  (0x10623, 0x73696466), (0x10624, 0x73696467), (0x10625, 0x73696468), (0x10626, 0x73696469), (0x10630, 0x73696673),
  (0x10631, 0x73696670), (0x10632, 0x73696664), (0x10633, 0x73696666), (0x10634, 0x73696667), (0x10635, 0x73696668),
  (0x10636, 0x73696669), (0x10640, 0x73696773), (0x10641, 0x73696770), (0x10642, 0x73696764), (0x10643, 0x73696766),
  (0x10644, 0x73696767), (0x10645, 0x73696768), (0x10646, 0x73696769), (0x10650, 0x73696873), (0x10651, 0x73696870),
  (0x10652, 0x73696864), (0x10653, 0x73696866), (0x10654, 0x73696867), (0x10655, 0x73696868), (0x10656, 0x73696869),
  (0x10660, 0x73696973), (0x10661, 0x73696970), (0x10662, 0x73696964), (0x10663, 0x73696966), (0x10664, 0x73696967),
  (0x10665, 0x73696968), (0x10666, 0x73696969), (0x11006, 0x70737369), (0x11016, 0x70737069), (0x11026, 0x70736469),
  (0x11036, 0x70736669), (0x11046, 0x70736769), (0x11056, 0x70736869), (0x11060, 0x70736973), (0x11061, 0x70736970),
  (0x11062, 0x70736964), (0x11063, 0x70736966), (0x11064, 0x70736967), (0x11065, 0x70736968), (0x11066, 0x70736969),
  (0x11106, 0x70707369), (0x11116, 0x70707069), (0x11126, 0x70706469), (0x11136, 0x70706669), (0x11146, 0x70706769),
  (0x11156, 0x70706869), (0x11160, 0x70706973), (0x11161, 0x70706970), (0x11162, 0x70706964), (0x11163, 0x70706966),
  (0x11164, 0x70706967), (0x11165, 0x70706968), (0x11166, 0x70706969), (0x11206, 0x70647369), (0x11216, 0x70647069),
  (0x11226, 0x70646469), (0x11236, 0x70646669), (0x11246, 0x70646769), (0x11256, 0x70646869), (0x11260, 0x70646973),
  (0x11261, 0x70646970), (0x11262, 0x70646964), (0x11263, 0x70646966), (0x11264, 0x70646967), (0x11265, 0x70646968),
  (0x11266, 0x70646969), (0x11306, 0x70667369), (0x11316, 0x70667069), (0x11326, 0x70666469), (0x11336, 0x70666669),
  (0x11346, 0x70666769), (0x11356, 0x70666869), (0x11360, 0x70666973), (0x11361, 0x70666970), (0x11362, 0x70666964),
  (0x11363, 0x70666966), (0x11364, 0x70666967), (0x11365, 0x70666968), (0x11366, 0x70666969), (0x11406, 0x70677369),
  (0x11416, 0x70677069), (0x11426, 0x70676469), (0x11436, 0x70676669), (0x11446, 0x70676769), (0x11456, 0x70676869),
  (0x11460, 0x70676973), (0x11461, 0x70676970), (0x11462, 0x70676964), (0x11463, 0x70676966), (0x11464, 0x70676967),
  (0x11465, 0x70676968), (0x11466, 0x70676969), (0x11506, 0x70687369), (0x11516, 0x70687069), (0x11526, 0x70686469),
  (0x11536, 0x70686669), (0x11546, 0x70686769), (0x11556, 0x70686869), (0x11560, 0x70686973), (0x11561, 0x70686970),
  (0x11562, 0x70686964), (0x11563, 0x70686966), (0x11564, 0x70686967), (0x11565, 0x70686968), (0x11566, 0x70686969),
  (0x11600, 0x70697373), (0x11601, 0x70697370), (0x11602, 0x70697364), (0x11603, 0x70697366), (0x11604, 0x70697367),
  (0x11605, 0x70697368), (0x11606, 0x70697369), (0x11610, 0x70697073), (0x11611, 0x70697070), (0x11612, 0x70697064),
  (0x11613, 0x70697066), (0x11614, 0x70697067), (0x11615, 0x70697068), (0x11616, 0x70697069), (0x11620, 0x70696473),
  (0x11621, 0x70696470), (0x11622, 0x70696464), (0x11623, 0x70696466), (0x11624, 0x70696467), (0x11625, 0x70696468),
  (0x11626, 0x70696469), (0x11630, 0x70696673), (0x11631, 0x70696670), (0x11632, 0x70696664), (0x11633, 0x70696666),
  (0x11634, 0x70696667), (0x11635, 0x70696668), (0x11636, 0x70696669), (0x11640, 0x70696773), (0x11641, 0x70696770),
  (0x11642, 0x70696764), (0x11643, 0x70696766), (0x11644, 0x70696767), (0x11645, 0x70696768), (0x11646, 0x70696769),
  (0x11650, 0x70696873), (0x11651, 0x70696870), (0x11652, 0x70696864), (0x11653, 0x70696866), (0x11654, 0x70696867),
  (0x11655, 0x70696868), (0x11656, 0x70696869), (0x11660, 0x70696973), (0x11661, 0x70696970), (0x11662, 0x70696964),
  (0x11663, 0x70696966), (0x11664, 0x70696967), (0x11665, 0x70696968), (0x11666, 0x70696969), (0x12006, 0x64737369),
  (0x12016, 0x64737069), (0x12026, 0x64736469), (0x12036, 0x64736669), (0x12046, 0x64736769), (0x12056, 0x64736869),
  (0x12060, 0x64736973), (0x12061, 0x64736970), (0x12062, 0x64736964), (0x12063, 0x64736966), (0x12064, 0x64736967),
  (0x12065, 0x64736968), (0x12066, 0x64736969), (0x12106, 0x64707369), (0x12116, 0x64707069), (0x12126, 0x64706469),
  (0x12136, 0x64706669), (0x12146, 0x64706769), (0x12156, 0x64706869), (0x12160, 0x64706973), (0x12161, 0x64706970),
  (0x12162, 0x64706964), (0x12163, 0x64706966), (0x12164, 0x64706967), (0x12165, 0x64706968), (0x12166, 0x64706969),
  (0x12206, 0x64647369), (0x12216, 0x64647069), (0x12226, 0x64646469), (0x12236, 0x64646669), (0x12246, 0x64646769),
  (0x12256, 0x64646869), (0x12260, 0x64646973), (0x12261, 0x64646970), (0x12262, 0x64646964), (0x12263, 0x64646966),
  (0x12264, 0x64646967), (0x12265, 0x64646968), (0x12266, 0x64646969), (0x12306, 0x64667369), (0x12316, 0x64667069),
  (0x12326, 0x64666469), (0x12336, 0x64666669), (0x12346, 0x64666769), (0x12356, 0x64666869), (0x12360, 0x64666973),
  (0x12361, 0x64666970), (0x12362, 0x64666964), (0x12363, 0x64666966), (0x12364, 0x64666967), (0x12365, 0x64666968),
  (0x12366, 0x64666969), (0x12406, 0x64677369), (0x12416, 0x64677069), (0x12426, 0x64676469), (0x12436, 0x64676669),
  (0x12446, 0x64676769), (0x12456, 0x64676869), (0x12460, 0x64676973), (0x12461, 0x64676970), (0x12462, 0x64676964),
  (0x12463, 0x64676966), (0x12464, 0x64676967), (0x12465, 0x64676968), (0x12466, 0x64676969), (0x12506, 0x64687369),
  (0x12516, 0x64687069), (0x12526, 0x64686469), (0x12536, 0x64686669), (0x12546, 0x64686769), (0x12556, 0x64686869),
  (0x12560, 0x64686973), (0x12561, 0x64686970), (0x12562, 0x64686964), (0x12563, 0x64686966), (0x12564, 0x64686967),
  (0x12565, 0x64686968), (0x12566, 0x64686969), (0x12600, 0x64697373), (0x12601, 0x64697370), (0x12602, 0x64697364),
  (0x12603, 0x64697366), (0x12604, 0x64697367), (0x12605, 0x64697368), (0x12606, 0x64697369), (0x12610, 0x64697073),
  (0x12611, 0x64697070), (0x12612, 0x64697064), (0x12613, 0x64697066), (0x12614, 0x64697067), (0x12615, 0x64697068),
  (0x12616, 0x64697069), (0x12620, 0x64696473), (0x12621, 0x64696470), (0x12622, 0x64696464), (0x12623, 0x64696466)]

def init1_6_1 : List (ℕ × ℕ) := [
  (0x12624, 0x64696467), (0x12625, 0x64696468), (0x12626, 0x64696469), (0x12630, 0x64696673), (0x12631, 0x64696670),
  (0x12632, 0x64696664), (0x12633, 0x64696666), (0x12634, 0x64696667), (0x12635, 0x64696668), (0x12636, 0x64696669),
  (0x12640, 0x64696773), (0x12641, 0x64696770), (0x12642, 0x64696764), (0x12643, 0x64696766), (0x12644, 0x64696767),
  (0x12645, 0x64696768), (0x12646, 0x64696769), (0x12650, 0x64696873), (0x12651, 0x64696870), (0x12652, 0x64696864),
  (0x12653, 0x64696866), (0x12654, 0x64696867), (0x12655, 0x64696868), (0x12656, 0x64696869), (0x12660, 0x64696973),
  (0x12661, 0x64696970), (0x12662, 0x64696964), (0x12663, 0x64696966), (0x12664, 0x64696967), (0x12665, 0x64696968),
  (0x12666, 0x64696969), (0x13006, 0x66737369), (0x13016, 0x66737069), (0x13026, 0x66736469), (0x13036, 0x66736669),
  (0x13046, 0x66736769), (0x13056, 0x66736869), (0x13060, 0x66736973), (0x13061, 0x66736970), (0x13062, 0x66736964),
  (0x13063, 0x66736966), (0x13064, 0x66736967), (0x13065, 0x66736968), (0x13066, 0x66736969), (0x13106, 0x66707369),
  (0x13116, 0x66707069), (0x13126, 0x66706469), (0x13136, 0x66706669), (0x13146, 0x66706769), (0x13156, 0x66706869),
  (0x13160, 0x66706973), (0x13161, 0x66706970), (0x13162, 0x66706964), (0x13163, 0x66706966), (0x13164, 0x66706967),
  (0x13165, 0x66706968), (0x13166, 0x66706969), (0x13206, 0x66647369), (0x13216, 0x66647069), (0x13226, 0x66646469),
  (0x13236, 0x66646669), (0x13246, 0x66646769), (0x13256, 0x66646869), (0x13260, 0x66646973), (0x13261, 0x66646970),
  (0x13262, 0x66646964), (0x13263, 0x66646966), (0x13264, 0x66646967), (0x13265, 0x66646968), (0x13266, 0x66646969),
  (0x13306, 0x66667369), (0x13316, 0x66667069), (0x13326, 0x66666469), (0x13336, 0x66666669), (0x13346, 0x66666769),
  (0x13356, 0x66666869), (0x13360, 0x66666973), (0x13361, 0x66666970), (0x13362, 0x66666964), (0x13363, 0x66666966),
  (0x13364, 0x66666967), (0x13365, 0x66666968), (0x13366, 0x66666969), (0x13406, 0x66677369), (0x13416, 0x66677069),
  (0x13426, 0x66676469), (0x13436, 0x66676669), (0x13446, 0x66676769), (0x13456, 0x66676869), (0x13460, 0x66676973),
  (0x13461, 0x66676970), (0x13462, 0x66676964), (0x13463, 0x66676966), (0x13464, 0x66676967), (0x13465, 0x66676968),
  (0x13466, 0x66676969), (0x13506, 0x66687369), (0x13516, 0x66687069), (0x13526, 0x66686469), (0x13536, 0x66686669),
  (0x13546, 0x66686769), (0x13556, 0x66686869), (0x13560, 0x66686973), (0x13561, 0x66686970), (0x13562, 0x66686964),
  (0x13563, 0x66686966), (0x13564, 0x66686967), (0x13565, 0x66686968), (0x13566, 0x66686969), (0x13600, 0x66697373),
  (0x13601, 0x66697370), (0x13602, 0x66697364), (0x13603, 0x66697366), (0x13604, 0x66697367), (0x13605, 0x66697368),
  (0x13606, 0x66697369), (0x13610, 0x66697073), (0x13611, 0x66697070), (0x13612, 0x66697064), (0x13613, 0x66697066),
  (0x13614, 0x66697067), (0x13615, 0x66697068), (0x13616, 0x66697069), (0x13620, 0x66696473), (0x13621, 0x66696470),
  (0x13622, 0x66696464), (0x13623, 0x66696466), (0x13624, 0x66696467), (0x13625, 0x66696468), (0x13626, 0x66696469),
  (0x13630, 0x66696673), (0x13631, 0x66696670), (0x13632, 0x66696664), (0x13633, 0x66696666), (0x13634, 0x66696667),
  (0x13635, 0x66696668), (0x13636, 0x66696669), (0x13640, 0x66696773), (0x13641, 0x66696770), (0x13642, 0x66696764),
  (0x13643, 0x66696766), (0x13644, 0x66696767), (0x13645, 0x66696768), (0x13646, 0x66696769), (0x13650, 0x66696873),
  (0x13651, 0x66696870), (0x13652, 0x66696864), (0x13653, 0x66696866), (0x13654, 0x66696867), (0x13655, 0x66696868),
  (0x13656, 0x66696869), (0x13660, 0x66696973), (0x13661, 0x66696970), (0x13662, 0x66696964), (0x13663, 0x66696966),
  (0x13664, 0x66696967), (0x13665, 0x66696968), (0x13666, 0x66696969), (0x14006, 0x67737369), (0x14016, 0x67737069),
  (0x14026, 0x67736469), (0x14036, 0x67736669), (0x14046, 0x67736769), (0x14056, 0x67736869), (0x14060, 0x67736973),
  (0x14061, 0x67736970), (0x14062, 0x67736964), (0x14063, 0x67736966), (0x14064, 0x67736967), (0x14065, 0x67736968),
  (0x14066, 0x67736969), (0x14106, 0x67707369), (0x14116, 0x67707069), (0x14126, 0x67706469), (0x14136, 0x67706669),
  (0x14146, 0x67706769), (0x14156, 0x67706869), (0x14160, 0x67706973), (0x14161, 0x67706970), (0x14162, 0x67706964),
  (0x14163, 0x67706966), (0x14164, 0x67706967), (0x14165, 0x67706968), (0x14166, 0x67706969), (0x14206, 0x67647369),
  (0x14216, 0x67647069), (0x14226, 0x67646469), (0x14236, 0x67646669), (0x14246, 0x67646769), (0x14256, 0x67646869),
  (0x14260, 0x67646973), (0x14261, 0x67646970), (0x14262, 0x67646964), (0x14263, 0x67646966), (0x14264, 0x67646967),
  (0x14265, 0x67646968), (0x14266, 0x67646969), (0x14306, 0x67667369), (0x14316, 0x67667069), (0x14326, 0x67666469),
  (0x14336, 0x67666669), (0x14346, 0x67666769), (0x14356, 0x67666869), (0x14360, 0x67666973), (0x14361, 0x67666970),
  (0x14362, 0x67666964), (0x14363, 0x67666966), (0x14364, 0x67666967), (0x14365, 0x67666968), (0x14366, 0x67666969),
  (0x14406, 0x67677369), (0x14416, 0x67677069), (0x14426, 0x67676469), (0x14436, 0x67676669), (0x14446, 0x67676769),
  (0x14456, 0x67676869), (0x14460, 0x67676973), (0x14461, 0x67676970), (0x14462, 0x67676964), (0x14463, 0x67676966),
  (0x14464, 0x67676967), (0x14465, 0x67676968), (0x14466, 0x67676969), (0x14506, 0x67687369), (0x14516, 0x67687069),
  (0x14526, 0x67686469), (0x14536, 0x67686669), (0x14546, 0x67686769), (0x14556, 0x67686869), (0x14560, 0x67686973),
  (0x14561, 0x67686970), (0x14562, 0x67686964), (0x14563, 0x67686966), (0x14564, 0x67686967), (0x14565, 0x67686968),
  (0x14566, 0x67686969), (0x14600, 0x67697373), (0x14601, 0x67697370), (0x14602, 0x67697364), (0x14603, 0x67697366),
  (0x14604, 0x67697367), (0x14605, 0x67697368), (0x14606, 0x67697369), (0x14610, 0x67697073), (0x14611, 0x67697070),
  (0x14612, 0x67697064), (0x14613, 0x67697066), (0x14614, 0x67697067), (0x14615, 0x67697068), (0x14616, 0x67697069),
  (0x14620, 0x67696473), (0x14621, 0x67696470), (0x14622, 0x67696464), (0x14623, 0x67696466), (0x14624, 0x67696467),
  (0x14625, 0x67696468), (0x14626, 0x67696469), (0x14630, 0x67696673), (0x14631, 0x67696670), (0x14632, 0x67696664),
  (0x14633, 0x67696666), (0x14634, 0x67696667), (0x14635, 0x67696668), (0x14636, 0x67696669), (0x14640, 0x67696773),
  (0x14641, 0x67696770), (0x14642, 0x67696764), (0x14643, 0x67696766), (0x14644, 0x67696767), (0x14645, 0x67696768),
  (0x14646, 0x67696769), (0x14650, 0x67696873), (0x14651, 0x67696870), (0x14652, 0x67696864), (0x14653, 0x67696866),
  (0x14654, 0x67696867), (0x14655, 0x67696868), (0x14656, 0x67696869), (0x14660, 0x67696973), (0x14661, 0x67696970),
  (0x14662, 0x67696964), (0x14663, 0x67696966), (0x14664, 0x67696967), (0x14665, 0x67696968), (0x14666, 0x67696969),
  (0x15006, 0x68737369), (0x15016, 0x68737069), (0x15026, 0x68736469), (0x15036, 0x68736669), (0x15046, 0x68736769),
  (0x15056, 0x68736869), (0x15060, 0x68736973), (0x15061, 0x68736970), (0x15062, 0x68736964), (0x15063, 0x68736966),
  (0x15064, 0x68736967), (0x15065, 0x68736968), (0x15066, 0x68736969), (0x15106, 0x68707369), (0x15116, 0x68707069),
  (0x15126, 0x68706469), (0x15136, 0x68706669), (0x15146, 0x68706769), (0x15156, 0x68706869), (0x15160, 0x68706973),
  (0x15161, 0x68706970), (0x15162, 0x68706964), (0x15163, 0x68706966), (0x15164, 0x68706967), (0x15165, 0x68706968),
  (0x15166, 0x68706969), (0x15206, 0x68647369), (0x15216, 0x68647069), (0x15226, 0x68646469), (0x15236, 0x68646669),
  (0x15246, 0x68646769), (0x15256, 0x68646869), (0x15260, 0x68646973), (0x15261, 0x68646970), (0x15262, 0x68646964),
  (0x15263, 0x68646966), (0x15264, 0x68646967), (0x15265, 0x68646968), (0x15266, 0x68646969), (0x15306, 0x68667369),
  (0x15316, 0x68667069), (0x15326, 0x68666469), (0x15336, 0x68666669), (0x15346, 0x68666769), (0x15356, 0x68666869),
  (0x15360, 0x68666973), (0x15361, 0x68666970), (0x15362, 0x68666964), (0x15363, 0x68666966), (0x15364, 0x68666967),
  (0x15365, 0x68666968), (0x15366, 0x68666969), (0x15406, 0x68677369), (0x15416, 0x68677069), (0x15426, 0x68676469),
  (0x15436, 0x68676669), (0x15446, 0x68676769), (0x15456, 0x68676869), (0x15460, 0x68676973), (0x15461, 0x68676970),
  (0x15462, 0x68676964), (0x15463, 0x68676966), (0x15464, 0x68676967), (0x15465, 0x68676968), (0x15466, 0x68676969)]

def init1_6_2 : List (ℕ × ℕ) := [
  (0x15506, 0x68687369), (0x15516, 0x68687069), (0x15526, 0x68686469), (0x15536, 0x68686669), (0x15546, 0x68686769),
  (0x15556, 0x68686869), (0x15560, 0x68686973), (0x15561, 0x68686970), (0x15562, 0x68686964), (0x15563, 0x68686966),
  (0x15564, 0x68686967), (0x15565, 0x68686968), (0x15566, 0x68686969), (0x15600, 0x68697373), (0x15601, 0x68697370),
  (0x15602, 0x68697364), (0x15603, 0x68697366), (0x15604, 0x68697367), (0x15605, 0x68697368), (0x15606, 0x68697369),
  (0x15610, 0x68697073), (0x15611, 0x68697070), (0x15612, 0x68697064), (0x15613, 0x68697066), (0x15614, 0x68697067),
  (0x15615, 0x68697068), (0x15616, 0x68697069), (0x15620, 0x68696473), (0x15621, 0x68696470), (0x15622, 0x68696464),
  (0x15623, 0x68696466), (0x15624, 0x68696467), (0x15625, 0x68696468), (0x15626, 0x68696469), (0x15630, 0x68696673),
  (0x15631, 0x68696670), (0x15632, 0x68696664), (0x15633, 0x68696666), (0x15634, 0x68696667), (0x15635, 0x68696668),
  (0x15636, 0x68696669), (0x15640, 0x68696773), (0x15641, 0x68696770), (0x15642, 0x68696764), (0x15643, 0x68696766),
  (0x15644, 0x68696767), (0x15645, 0x68696768), (0x15646, 0x68696769), (0x15650, 0x68696873), (0x15651, 0x68696870),
  (0x15652, 0x68696864), (0x15653, 0x68696866), (0x15654, 0x68696867), (0x15655, 0x68696868), (0x15656, 0x68696869),
  (0x15660, 0x68696973), (0x15661, 0x68696970), (0x15662, 0x68696964), (0x15663, 0x68696966), (0x15664, 0x68696967),
  (0x15665, 0x68696968), (0x15666, 0x68696969), (0x16000, 0x69737373), (0x16001, 0x69737370), (0x16002, 0x69737364),
  (0x16003, 0x69737366), (0x16004, 0x69737367), (0x16005, 0x69737368), (0x16006, 0x69737369), (0x16010, 0x69737073),
  (0x16011, 0x69737070), (0x16012, 0x69737064), (0x16013, 0x69737066), (0x16014, 0x69737067), (0x16015, 0x69737068),
  (0x16016, 0x69737069), (0x16020, 0x69736473), (0x16021, 0x69736470), (0x16022, 0x69736464), (0x16023, 0x69736466),
  (0x16024, 0x69736467), (0x16025, 0x69736468), (0x16026, 0x69736469), (0x16030, 0x69736673), (0x16031, 0x69736670),
  (0x16032, 0x69736664), (0x16033, 0x69736666), (0x16034, 0x69736667), (0x16035, 0x69736668), (0x16036, 0x69736669),
  (0x16040, 0x69736773), (0x16041, 0x69736770), (0x16042, 0x69736764), (0x16043, 0x69736766), (0x16044, 0x69736767),
  (0x16045, 0x69736768), (0x16046, 0x69736769), (0x16050, 0x69736873), (0x16051, 0x69736870), (0x16052, 0x69736864),
  (0x16053, 0x69736866), (0x16054, 0x69736867), (0x16055, 0x69736868), (0x16056, 0x69736869), (0x16060, 0x69736973),
  (0x16061, 0x69736970), (0x16062, 0x69736964), (0x16063, 0x69736966), (0x16064, 0x69736967), (0x16065, 0x69736968),
  (0x16066, 0x69736969), (0x16100, 0x69707373), (0x16101, 0x69707370), (0x16102, 0x69707364), (0x16103, 0x69707366),
  (0x16104, 0x69707367), (0x16105, 0x69707368), (0x16106, 0x69707369), (0x16110, 0x69707073), (0x16111, 0x69707070),
  (0x16112, 0x69707064), (0x16113, 0x69707066), (0x16114, 0x69707067), (0x16115, 0x69707068), (0x16116, 0x69707069),
  (0x16120, 0x69706473), (0x16121, 0x69706470), (0x16122, 0x69706464), (0x16123, 0x69706466), (0x16124, 0x69706467),
  (0x16125, 0x69706468), (0x16126, 0x69706469), (0x16130, 0x69706673), (0x16131, 0x69706670), (0x16132, 0x69706664),
  (0x16133, 0x69706666), (0x16134, 0x69706667), (0x16135, 0x69706668), (0x16136, 0x69706669), (0x16140, 0x69706773),
  (0x16141, 0x69706770), (0x16142, 0x69706764), (0x16143, 0x69706766), (0x16144, 0x69706767), (0x16145, 0x69706768),
  (0x16146, 0x69706769), (0x16150, 0x69706873), (0x16151, 0x69706870), (0x16152, 0x69706864), (0x16153, 0x69706866),
  (0x16154, 0x69706867), (0x16155, 0x69706868), (0x16156, 0x69706869), (0x16160, 0x69706973), (0x16161, 0x69706970),
  (0x16162, 0x69706964), (0x16163, 0x69706966), (0x16164, 0x69706967), (0x16165, 0x69706968), (0x16166, 0x69706969),
  (0x16200, 0x69647373), (0x16201, 0x69647370), (0x16202, 0x69647364), (0x16203, 0x69647366), (0x16204, 0x69647367),
  (0x16205, 0x69647368), (0x16206, 0x69647369), (0x16210, 0x69647073), (0x16211, 0x69647070), (0x16212, 0x69647064),
  (0x16213, 0x69647066), (0x16214, 0x69647067), (0x16215, 0x69647068), (0x16216, 0x69647069), (0x16220, 0x69646473),
  (0x16221, 0x69646470), (0x16222, 0x69646464), (0x16223, 0x69646466), (0x16224, 0x69646467), (0x16225, 0x69646468),
  (0x16226, 0x69646469), (0x16230, 0x69646673), (0x16231, 0x69646670), (0x16232, 0x69646664), (0x16233, 0x69646666),
  (0x16234, 0x69646667), (0x16235, 0x69646668), (0x16236, 0x69646669), (0x16240, 0x69646773), (0x16241, 0x69646770),
  (0x16242, 0x69646764), (0x16243, 0x69646766), (0x16244, 0x69646767), (0x16245, 0x69646768), (0x16246, 0x69646769),
  (0x16250, 0x69646873), (0x16251, 0x69646870), (0x16252, 0x69646864), (0x16253, 0x69646866), (0x16254, 0x69646867),
  (0x16255, 0x69646868), (0x16256, 0x69646869), (0x16260, 0x69646973), (0x16261, 0x69646970), (0x16262, 0x69646964),
  (0x16263, 0x69646966), (0x16264, 0x69646967), (0x16265, 0x69646968), (0x16266, 0x69646969), (0x16300, 0x69667373),
  (0x16301, 0x69667370), (0x16302, 0x69667364), (0x16303, 0x69667366), (0x16304, 0x69667367), (0x16305, 0x69667368),
  (0x16306, 0x69667369), (0x16310, 0x69667073), (0x16311, 0x69667070), (0x16312, 0x69667064), (0x16313, 0x69667066),
  (0x16314, 0x69667067), (0x16315, 0x69667068), (0x16316, 0x69667069), (0x16320, 0x69666473), (0x16321, 0x69666470),
  (0x16322, 0x69666464), (0x16323, 0x69666466), (0x16324, 0x69666467), (0x16325, 0x69666468), (0x16326, 0x69666469),
  (0x16330, 0x69666673), (0x16331, 0x69666670), (0x16332, 0x69666664), (0x16333, 0x69666666), (0x16334, 0x69666667),
  (0x16335, 0x69666668), (0x16336, 0x69666669), (0x16340, 0x69666773), (0x16341, 0x69666770), (0x16342, 0x69666764),
  (0x16343, 0x69666766), (0x16344, 0x69666767), (0x16345, 0x69666768), (0x16346, 0x69666769), (0x16350, 0x69666873),
  (0x16351, 0x69666870), (0x16352, 0x69666864), (0x16353, 0x69666866), (0x16354, 0x69666867), (0x16355, 0x69666868),
  (0x16356, 0x69666869), (0x16360, 0x69666973), (0x16361, 0x69666970), (0x16362, 0x69666964), (0x16363, 0x69666966),
  (0x16364, 0x69666967), (0x16365, 0x69666968), (0x16366, 0x69666969), (0x16400, 0x69677373), (0x16401, 0x69677370),
  (0x16402, 0x69677364), (0x16403, 0x69677366), (0x16404, 0x69677367), (0x16405, 0x69677368), (0x16406, 0x69677369),
  (0x16410, 0x69677073), (0x16411, 0x69677070), (0x16412, 0x69677064), (0x16413, 0x69677066), (0x16414, 0x69677067),
  (0x16415, 0x69677068), (0x16416, 0x69677069), (0x16420, 0x69676473), (0x16421, 0x69676470), (0x16422, 0x69676464),
  (0x16423, 0x69676466), (0x16424, 0x69676467), (0x16425, 0x69676468), (0x16426, 0x69676469), (0x16430, 0x69676673),
  (0x16431, 0x69676670), (0x16432, 0x69676664), (0x16433, 0x69676666), (0x16434, 0x69676667), (0x16435, 0x69676668),
  (0x16436, 0x69676669), (0x16440, 0x69676773), (0x16441, 0x69676770), (0x16442, 0x69676764), (0x16443, 0x69676766),
  (0x16444, 0x69676767), (0x16445, 0x69676768), (0x16446, 0x69676769), (0x16450, 0x69676873), (0x16451, 0x69676870),
  (0x16452, 0x69676864), (0x16453, 0x69676866), (0x16454, 0x69676867), (0x16455, 0x69676868), (0x16456, 0x69676869),
  (0x16460, 0x69676973), (0x16461, 0x69676970), (0x16462, 0x69676964), (0x16463, 0x69676966), (0x16464, 0x69676967),
  (0x16465, 0x69676968), (0x16466, 0x69676969), (0x16500, 0x69687373), (0x16501, 0x69687370), (0x16502, 0x69687364),
  (0x16503, 0x69687366), (0x16504, 0x69687367), (0x16505, 0x69687368), (0x16506, 0x69687369), (0x16510, 0x69687073),
  (0x16511, 0x69687070), (0x16512, 0x69687064), (0x16513, 0x69687066), (0x16514, 0x69687067), (0x16515, 0x69687068),
  (0x16516, 0x69687069), (0x16520, 0x69686473), (0x16521, 0x69686470), (0x16522, 0x69686464), (0x16523, 0x69686466),
  (0x16524, 0x69686467), (0x16525, 0x69686468), (0x16526, 0x69686469), (0x16530, 0x69686673), (0x16531, 0x69686670),
  (0x16532, 0x69686664), (0x16533, 0x69686666), (0x16534, 0x69686667), (0x16535, 0x69686668), (0x16536, 0x69686669),
  (0x16540, 0x69686773), (0x16541, 0x69686770), (0x16542, 0x69686764), (0x16543, 0x69686766), (0x16544, 0x69686767),
  (0x16545, 0x69686768), (0x16546, 0x69686769), (0x16550, 0x69686873), (0x16551, 0x69686870), (0x16552, 0x69686864),
  (0x16553, 0x69686866), (0x16554, 0x69686867), (0x16555, 0x69686868), (0x16556, 0x69686869), (0x16560, 0x69686973)]

def init1_6_3 : List (ℕ × ℕ) := [
  (0x16561, 0x69686970), (0x16562, 0x69686964), (0x16563, 0x69686966), (0x16564, 0x69686967), (0x16565, 0x69686968),
  (0x16566, 0x69686969), (0x16600, 0x69697373), (0x16601, 0x69697370), (0x16602, 0x69697364), (0x16603, 0x69697366),
  (0x16604, 0x69697367), (0x16605, 0x69697368), (0x16606, 0x69697369), (0x16610, 0x69697073), (0x16611, 0x69697070),
  (0x16612, 0x69697064), (0x16613, 0x69697066), (0x16614, 0x69697067), (0x16615, 0x69697068), (0x16616, 0x69697069),
  (0x16620, 0x69696473), (0x16621, 0x69696470), (0x16622, 0x69696464), (0x16623, 0x69696466), (0x16624, 0x69696467),
  (0x16625, 0x69696468), (0x16626, 0x69696469), (0x16630, 0x69696673), (0x16631, 0x69696670), (0x16632, 0x69696664),
  (0x16633, 0x69696666), (0x16634, 0x69696667), (0x16635, 0x69696668), (0x16636, 0x69696669), (0x16640, 0x69696773),
  (0x16641, 0x69696770), (0x16642, 0x69696764), (0x16643, 0x69696766), (0x16644, 0x69696767), (0x16645, 0x69696768),
  (0x16646, 0x69696769), (0x16650, 0x69696873), (0x16651, 0x69696870), (0x16652, 0x69696864), (0x16653, 0x69696866),
  (0x16654, 0x69696867), (0x16655, 0x69696868), (0x16656, 0x69696869), (0x16660, 0x69696973), (0x16661, 0x69696970),
  (0x16662, 0x69696964), (0x16663, 0x69696966), (0x16664, 0x69696967), (0x16665, 0x69696968), (0x16666, 0x69696969)]

def init1_6 : List (ℕ × ℕ) :=
  init1_6_0 ++ init1_6_1 ++ init1_6_2 ++ init1_6_3

def init1_7_0 : List (ℕ × ℕ) := [
  (0x10007, 0x7373736B), (0x10017, 0x7373706B), (0x10027, 0x7373646B), (0x10037, 0x7373666B), (0x10047, 0x7373676B),
  (0x10057, 0x7373686B), (0x10067, 0x7373696B), (0x10070, 0x73736B73), (0x10071, 0x73736B70), (0x10072, 0x73736B64),
  (0x10073, 0x73736B66), (0x10074, 0x73736B67), (0x10075, 0x73736B68), (0x10076, 0x73736B69), (0x10077, 0x73736B6B),
  (0x10107, 0x7370736B), (0x10117, 0x7370706B), (0x10127, 0x7370646B), (0x10137, 0x7370666B), (0x10147, 0x7370676B),
  (0x10157, 0x7370686B), (0x10167, 0x7370696B), (0x10170, 0x73706B73), (0x10171, 0x73706B70), (0x10172, 0x73706B64),
  (0x10173, 0x73706B66), (0x10174, 0x73706B67), (0x10175, 0x73706B68), (0x10176, 0x73706B69), (0x10177, 0x73706B6B),
  (0x10207, 0x7364736B), (0x10217, 0x7364706B), (0x10227, 0x7364646B), (0x10237, 0x7364666B), (0x10247, 0x7364676B),
  (0x10257, 0x7364686B), (0x10267, 0x7364696B), (0x10270, 0x73646B73), (0x10271, 0x73646B70), (0x10272, 0x73646B64),
  (0x10273, 0x73646B66), (0x10274, 0x73646B67), (0x10275, 0x73646B68), (0x10276, 0x73646B69), (0x10277, 0x73646B6B),
  (0x10307, 0x7366736B), (0x10317, 0x7366706B), (0x10327, 0x7366646B), (0x10337, 0x7366666B), (0x10347, 0x7366676B),
  (0x10357, 0x7366686B), (0x10367, 0x7366696B), (0x10370, 0x73666B73), (0x10371, 0x73666B70), (0x10372, 0x73666B64),
  (0x10373, 0x73666B66), (0x10374, 0x73666B67), (0x10375, 0x73666B68), (0x10376, 0x73666B69), (0x10377, 0x73666B6B),
  (0x10407, 0x7367736B), (0x10417, 0x7367706B), (0x10427, 0x7367646B), (0x10437, 0x7367666B), (0x10447, 0x7367676B),
  (0x10457, 0x7367686B), (0x10467, 0x7367696B), (0x10470, 0x73676B73), (0x10471, 0x73676B70), (0x10472, 0x73676B64),
  (0x10473, 0x73676B66), (0x10474, 0x73676B67), (0x10475, 0x73676B68), (0x10476, 0x73676B69), (0x10477, 0x73676B6B),
  (0x10507, 0x7368736B), (0x10517, 0x7368706B), (0x10527, 0x7368646B), (0x10537, 0x7368666B), (0x10547, 0x7368676B),
  (0x10557, 0x7368686B), (0x10567, 0x7368696B), (0x10570, 0x73686B73), (0x10571, 0x73686B70), (0x10572, 0x73686B64),
  (0x10573, 0x73686B66), (0x10574, 0x73686B67), (0x10575, 0x73686B68), (0x10576, 0x73686B69), (0x10577, 0x73686B6B),
  (0x10607, 0x7369736B), (0x10617, 0x7369706B), (0x10627, 0x7369646B), (0x10637, 0x7369666B), (0x10647, 0x7369676B),
  (0x10657, 0x7369686B), (0x10667, 0x7369696B), (0x10670, 0x73696B73), (0x10671, 0x73696B70), (0x10672, 0x73696B64),
  (0x10673, 0x73696B66), (0x10674, 0x73696B67), (0x10675, 0x73696B68), (0x10676, 0x73696B69), (0x10677, 0x73696B6B),
  (0x10700, 0x736B7373), (0x10701, 0x736B7370), (0x10702, 0x736B7364), (0x10703, 0x736B7366), (0x10704, 0x736B7367),
  (0x10705, 0x736B7368), (0x10706, 0x736B7369), (0x10707, 0x736B736B), (0x10710, 0x736B7073), (0x10711, 0x736B7070),
  (0x10712, 0x736B7064), (0x10713, 0x736B7066), (0x10714, 0x736B7067), (0x10715, 0x736B7068), (0x10716, 0x736B7069),
  (0x10717, 0x736B706B), (0x10720, 0x736B6473), (0x10721, 0x736B6470), (0x10722, 0x736B6464), (0x10723, 0x736B6466),
  (0x10724, 0x736B6467), (0x10725, 0x736B6468), (0x10726, 0x736B6469), (0x10727, 0x736B646B), (0x10730, 0x736B6673),
  (0x10731, 0x736B6670), (0x10732, 0x736B6664), (0x10733, 0x736B6666), (0x10734, 0x736B6667), (0x10735, 0x736B6668),
  (0x10736, 0x736B6669), (0x10737, 0x736B666B), (0x10740, 0x736B6773), (0x10741, 0x736B6770), (0x10742, 0x736B6764),
  (0x10743, 0x736B6766), (0x10744, 0x736B6767), (0x10745, 0x736B6768), (0x10746, 0x736B6769), (0x10747, 0x736B676B),
  (0x10750, 0x736B6873), (0x10751, 0x736B6870), (0x10752, 0x736B6864), (0x10753, 0x736B6866), (0x10754, 0x736B6867),
  (0x10755, 0x736B6868), (0x10756, 0x736B6869), (0x10757, 0x736B686B), (0x10760, 0x736B6973), (0x10761, 0x736B6970),
  (0x10762, 0x736B6964), (0x10763, 0x736B6966), (0x10764, 0x736B6967), (0x10765, 0x736B6968), (0x10766, 0x736B6969),
  (0x10767, 0x736B696B), (0x10770, 0x736B6B73), (0x10771, 0x736B6B70), (0x10772, 0x736B6B64), (0x10773, 0x736B6B66),
  (0x10774, 0x736B6B67), (0x10775, 0x736B6B68), (0x10776, 0x736B6B69), (0x10777, 0x736B6B6B), (0x11007, 0x7073736B),
  (0x11017, 0x7073706B), (0x11027, 0x7073646B), (0x11037, 0x7073666B), (0x11047, 0x7073676B), (0x11057, 0x7073686B),
  (0x11067, 0x7073696B), (0x11070, 0x70736B73), (0x11071, 0x70736B70), (0x11072, 0x70736B64), (0x11073, 0x70736B66),
  (0x11074, 0x70736B67), (0x11075, 0x70736B68), (0x11076, 0x70736B69), (0x11077, 0x70736B6B), (0x11107, 0x7070736B),
  (0x11117, 0x7070706B), (0x11127, 0x7070646B), (0x11137, 0x7070666B), (0x11147, 0x7070676B), (0x11157, 0x7070686B),
  (0x11167, 0x7070696B), (0x11170, 0x70706B73), (0x11171, 0x70706B70), (0x11172, 0x70706B64), (0x11173, 0x70706B66),
  (0x11174, 0x70706B67), (0x11175, 0x70706B68), (0x11176, 0x70706B69), (0x11177, 0x70706B6B), (0x11207, 0x7064736B),
  (0x11217, 0x7064706B), (0x11227, 0x7064646B), (0x11237, 0x7064666B), (0x11247, 0x7064676B), (0x11257, 0x7064686B),
  (0x11267, 0x7064696B), (0x11270, 0x70646B73), (0x11271, 0x70646B70), (0x11272, 0x70646B64), (0x11273, 0x70646B66),
  (0x11274, 0x70646B67), (0x11275, 0x70646B68), (0x11276, 0x70646B69), (0x11277, 0x70646B6B), (0x11307, 0x7066736B),
  (0x11317, 0x7066706B), (0x11327, 0x7066646B), (0x11337, 0x7066666B), (0x11347, 0x7066676B), (0x11357, 0x7066686B),
  (0x11367, 0x7066696B), (0x11370, 0x70666B73), (0x11371, 0x70666B70), (0x11372, 0x70666B64), (0x11373, 0x70666B66),
  (0x11374, 0x70666B67), (0x11375, 0x70666B68), (0x11376, 0x70666B69), (0x11377, 0x70666B6B), (0x11407, 0x7067736B),
  (0x11417, 0x7067706B), (0x11427, 0x7067646B), (0x11437, 0x7067666B), (0x11447, 0x7067676B), (0x11457, 0x7067686B),
  (0x11467, 0x7067696B), (0x11470, 0x70676B73), (0x11471, 0x70676B70), (0x11472, 0x70676B64), (0x11473, 0x70676B66),
  (0x11474, 0x70676B67), (0x11475, 0x70676B68), (0x11476, 0x70676B69), (0x11477, 0x70676B6B), (0x11507, 0x7068736B),
  (0x11517, 0x7068706B), (0x11527, 0x7068646B), (0x11537, 0x7068666B), (0x11547, 0x7068676B), (0x11557, 0x7068686B),
  (0x11567, 0x7068696B), (0x11570, 0x70686B73), (0x11571, 0x70686B70), (0x11572, 0x70686B64), (0x11573, 0x70686B66),
  (0x11574, 0x70686B67), (0x11575, 0x70686B68), (0x11576, 0x70686B69), (0x11577, 0x70686B6B), (0x11607, 0x7069736B),
  (0x11617, 0x7069706B), (0x11627, 0x7069646B), (0x11637, 0x7069666B), (0x11647, 0x7069676B), (0x11657, 0x7069686B),
  (0x11667, 0x7069696B), (0x11670, 0x70696B73), (0x11671, 0x70696B70), (0x11672, 0x70696B64), (0x11673, 0x70696B66),
  (0x11674, 0x70696B67), (0x11675, 0x70696B68), (0x11676, 0x70696B69), (0x11677, 0x70696B6B), (0x11700, 0x706B7373),
  (0x11701, 0x706B7370), (0x11702, 0x706B7364), (0x11703, 0x706B7366), (0x11704, 0x706B7367), (0x11705, 0x706B7368),
  (0x11706, 0x706B7369), (0x11707, 0x706B736B), (0x11710, 0x706B7073), (0x11711, 0x706B7070), (0x11712, 0x706B7064),
  (0x11713, 0x706B7066), (0x11714, 0x706B7067), (0x11715, 0x706B7068), (0x11716, 0x706B7069), (0x11717, 0x706B706B),
  (0x11720, 0x706B6473), (0x11721, 0x706B6470), (0x11722, 0x706B6464), (0x11723, 0x706B6466), (0x11724, 0x706B6467),
  (0x11725, 0x706B6468), (0x11726, 0x706B6469), (0x11727, 0x706B646B), (0x11730, 0x706B6673), (0x11731, 0x706B6670),
  (0x11732, 0x706B6664), (0x11733, 0x706B6666), (0x11734, 0x706B6667), (0x11735, 0x706B6668), (0x11736, 0x706B6669),
  (0x11737, 0x706B666B), (0x11740, 0x706B6773), (0x11741, 0x706B6770), (0x11742, 0x706B6764), (0x11743, 0x706B6766),
  (0x11744, 0x706B6767), (0x11745, 0x706B6768), (0x11746, 0x706B6769), (0x11747, 0x706B676B), (0x11750, 0x706B6873),
  (0x11751, 0x706B6870), (0x11752, 0x706B6864), (0x11753, 0x706B6866), (0x11754, 0x706B6867), (0x11755, 0x706B6868),
  (0x11756, 0x706B6869), (0x11757, 0x706B686B), (0x11760, 0x706B6973), (0x11761, 0x706B6970), (0x11762, 0x706B6964),
  (0x11763, 0x706B6966), (0x11764, 0x706B6967), (0x11765, 0x706B6968), (0x11766, 0x706B6969), (0x11767, 0x706B696B),
  (0x11770, 0x706B6B73), (0x11771, 0x706B6B70), (0x11772, 0x706B6B64), (0x11773, 0x706B6B66), (0x11774, 0x706B6B67),
  (0x11775, 0x706B6B68), (0x11776, 0x706B6B69), (0x11777, 0x706B6B6B), (0x12007, 0x6473736B), (0x12017, 0x6473706B),
  (0x12027, 0x6473646B), (0x12037, 0x6473666B), (0x12047, 0x6473676B), (0x12057, 0x6473686B), (0x12067, 0x6473696B),
  (0x12070, 0x64736B73), (0x12071, 0x64736B70), (0x12072, 0x64736B64), (0x12073, 0x64736B66), (0x12074, 0x64736B67)]

def init1_7_1 : List (ℕ × ℕ) := [
  (0x12075, 0x64736B68), (0x12076, 0x64736B69), (0x12077, 0x64736B6B), (0x12107, 0x6470736B), (0x12117, 0x6470706B),
  (0x12127, 0x6470646B), (0x12137, 0x6470666B), (0x12147, 0x6470676B), (0x12157, 0x6470686B), (0x12167, 0x6470696B),
  (0x12170, 0x64706B73), (0x12171, 0x64706B70), (0x12172, 0x64706B64), (0x12173, 0x64706B66), (0x12174, 0x64706B67),
  (0x12175, 0x64706B68), (0x12176, 0x64706B69), (0x12177, 0x64706B6B), (0x12207, 0x6464736B), (0x12217, 0x6464706B),
  (0x12227, 0x6464646B), (0x12237, 0x6464666B), (0x12247, 0x6464676B), (0x12257, 0x6464686B), (0x12267, 0x6464696B),
  (0x12270, 0x64646B73), (0x12271, 0x64646B70), (0x12272, 0x64646B64), (0x12273, 0x64646B66), (0x12274, 0x64646B67),
  (0x12275, 0x64646B68), (0x12276, 0x64646B69), (0x12277, 0x64646B6B), (0x12307, 0x6466736B), (0x12317, 0x6466706B),
  (0x12327, 0x6466646B), (0x12337, 0x6466666B), (0x12347, 0x6466676B), (0x12357, 0x6466686B), (0x12367, 0x6466696B),
  (0x12370, 0x64666B73), (0x12371, 0x64666B70), (0x12372, 0x64666B64), (0x12373, 0x64666B66), (0x12374, 0x64666B67),
  (0x12375, 0x64666B68), (0x12376, 0x64666B69), (0x12377, 0x64666B6B), (0x12407, 0x6467736B), (0x12417, 0x6467706B),
  (0x12427, 0x6467646B), (0x12437, 0x6467666B), (0x12447, 0x6467676B), (0x12457, 0x6467686B), (0x12467, 0x6467696B),
  (0x12470, 0x64676B73), (0x12471, 0x64676B70), (0x12472, 0x64676B64), (0x12473, 0x64676B66), (0x12474, 0x64676B67),
  (0x12475, 0x64676B68), (0x12476, 0x64676B69), (0x12477, 0x64676B6B), (0x12507, 0x6468736B), (0x12517, 0x6468706B),
  (0x12527, 0x6468646B), (0x12537, 0x6468666B), (0x12547, 0x6468676B), (0x12557, 0x6468686B), (0x12567, 0x6468696B),
  (0x12570, 0x64686B73), (0x12571, 0x64686B70), (0x12572, 0x64686B64), (0x12573, 0x64686B66), (0x12574, 0x64686B67),
  (0x12575, 0x64686B68), (0x12576, 0x64686B69), (0x12577, 0x64686B6B), (0x12607, 0x6469736B), (0x12617, 0x6469706B),
  (0x12627, 0x6469646B), (0x12637, 0x6469666B), (0x12647, 0x6469676B), (0x12657, 0x6469686B), (0x12667, 0x6469696B),
  (0x12670, 0x64696B73), (0x12671, 0x64696B70), (0x12672, 0x64696B64), (0x12673, 0x64696B66), (0x12674, 0x64696B67),
  (0x12675, 0x64696B68), (0x12676, 0x64696B69), (0x12677, 0x64696B6B), (0x12700, 0x646B7373), (0x12701, 0x646B7370),
  (0x12702, 0x646B7364), (0x12703, 0x646B7366), (0x12704, 0x646B7367), (0x12705, 0x646B7368), (0x12706, 0x646B7369),
  (0x12707, 0x646B736B), (0x12710, 0x646B7073), (0x12711, 0x646B7070), (0x12712, 0x646B7064), (0x12713, 0x646B7066),
  (0x12714, 0x646B7067), (0x12715, 0x646B7068), (0x12716, 0x646B7069), (0x12717, 0x646B706B), (0x12720, 0x646B6473),
  (0x12721, 0x646B6470), (0x12722, 0x646B6464), (0x12723, 0x646B6466), (0x12724, 0x646B6467), (0x12725, 0x646B6468),
  (0x12726, 0x646B6469), (0x12727, 0x646B646B), (0x12730, 0x646B6673), (0x12731, 0x646B6670), (0x12732, 0x646B6664),
  (0x12733, 0x646B6666), (0x12734, 0x646B6667), (0x12735, 0x646B6668), (0x12736, 0x646B6669), (0x12737, 0x646B666B),
  (0x12740, 0x646B6773), (0x12741, 0x646B6770), (0x12742, 0x646B6764), (0x12743, 0x646B6766), (0x12744, 0x646B6767),
  (0x12745, 0x646B6768), (0x12746, 0x646B6769), (0x12747, 0x646B676B), (0x12750, 0x646B6873), (0x12751, 0x646B6870),
  (0x12752, 0x646B6864), (0x12753, 0x646B6866), (0x12754, 0x646B6867), (0x12755, 0x646B6868), (0x12756, 0x646B6869),
  (0x12757, 0x646B686B), (0x12760, 0x646B6973), (0x12761, 0x646B6970), (0x12762, 0x646B6964), (0x12763, 0x646B6966),
  (0x12764, 0x646B6967), (0x12765, 0x646B6968), (0x12766, 0x646B6969), (0x12767, 0x646B696B), (0x12770, 0x646B6B73),
  (0x12771, 0x646B6B70), (0x12772, 0x646B6B64), (0x12773, 0x646B6B66), (0x12774, 0x646B6B67), (0x12775, 0x646B6B68),
  (0x12776, 0x646B6B69), (0x12777, 0x646B6B6B), (0x13007, 0x6673736B), (0x13017, 0x6673706B), (0x13027, 0x6673646B),
  (0x13037, 0x6673666B), (0x13047, 0x6673676B), (0x13057, 0x6673686B), (0x13067, 0x6673696B), (0x13070, 0x66736B73),
  (0x13071, 0x66736B70), (0x13072, 0x66736B64), (0x13073, 0x66736B66), (0x13074, 0x66736B67), (0x13075, 0x66736B68),
  (0x13076, 0x66736B69), (0x13077, 0x66736B6B), (0x13107, 0x6670736B), (0x13117, 0x6670706B), (0x13127, 0x6670646B),
  (0x13137, 0x6670666B), (0x13147, 0x6670676B), (0x13157, 0x6670686B), (0x13167, 0x6670696B), (0x13170, 0x66706B73),
  (0x13171, 0x66706B70), (0x13172, 0x66706B64), (0x13173, 0x66706B66), (0x13174, 0x66706B67), (0x13175, 0x66706B68),
  (0x13176, 0x66706B69), (0x13177, 0x66706B6B), (0x13207, 0x6664736B), (0x13217, 0x6664706B), (0x13227, 0x6664646B),
  (0x13237, 0x6664666B), (0x13247, 0x6664676B), (0x13257, 0x6664686B), (0x13267, 0x6664696B), (0x13270, 0x66646B73),
  (0x13271, 0x66646B70), (0x13272, 0x66646B64), (0x13273, 0x66646B66), (0x13274, 0x66646B67), (0x13275, 0x66646B68),
  (0x13276, 0x66646B69), (0x13277, 0x66646B6B), (0x13307, 0x6666736B), (0x13317, 0x6666706B), (0x13327, 0x6666646B),
  (0x13337, 0x6666666B), (0x13347, 0x6666676B), (0x13357, 0x6666686B), (0x13367, 0x6666696B), (0x13370, 0x66666B73),
  (0x13371, 0x66666B70), (0x13372, 0x66666B64), (0x13373, 0x66666B66), (0x13374, 0x66666B67), (0x13375, 0x66666B68),
  (0x13376, 0x66666B69), (0x13377, 0x66666B6B), (0x13407, 0x6667736B), (0x13417, 0x6667706B), (0x13427, 0x6667646B),
  (0x13437, 0x6667666B), (0x13447, 0x6667676B), (0x13457, 0x6667686B), (0x13467, 0x6667696B), (0x13470, 0x66676B73),
  (0x13471, 0x66676B70), (0x13472, 0x66676B64), (0x13473, 0x66676B66), (0x13474, 0x66676B67), (0x13475, 0x66676B68),
  (0x13476, 0x66676B69), (0x13477, 0x66676B6B), (0x13507, 0x6668736B), (0x13517, 0x6668706B), (0x13527, 0x6668646B),
  (0x13537, 0x6668666B), (0x13547, 0x6668676B), (0x13557, 0x6668686B), (0x13567, 0x6668696B), (0x13570, 0x66686B73),
  (0x13571, 0x66686B70), (0x13572, 0x66686B64), (0x13573, 0x66686B66), (0x13574, 0x66686B67), (0x13575, 0x66686B68),
  (0x13576, 0x66686B69), (0x13577, 0x66686B6B), (0x13607, 0x6669736B), (0x13617, 0x6669706B), (0x13627, 0x6669646B),
  (0x13637, 0x6669666B), (0x13647, 0x6669676B), (0x13657, 0x6669686B), (0x13667, 0x6669696B), (0x13670, 0x66696B73),
  (0x13671, 0x66696B70), (0x13672, 0x66696B64), (0x13673, 0x66696B66), (0x13674, 0x66696B67), (0x13675, 0x66696B68),
  (0x13676, 0x66696B69), (0x13677, 0x66696B6B), (0x13700, 0x666B7373), (0x13701, 0x666B7370), (0x13702, 0x666B7364),
  (0x13703, 0x666B7366), (0x13704, 0x666B7367), (0x13705, 0x666B7368), (0x13706, 0x666B7369), (0x13707, 0x666B736B),
  (0x13710, 0x666B7073), (0x13711, 0x666B7070), (0x13712, 0x666B7064), (0x13713, 0x666B7066), (0x13714, 0x666B7067),
  (0x13715, 0x666B7068), (0x13716, 0x666B7069), (0x13717, 0x666B706B), (0x13720, 0x666B6473), (0x13721, 0x666B6470),
  (0x13722, 0x666B6464), (0x13723, 0x666B6466), (0x13724, 0x666B6467), (0x13725, 0x666B6468), (0x13726, 0x666B6469),
  (0x13727, 0x666B646B), (0x13730, 0x666B6673), (0x13731, 0x666B6670), (0x13732, 0x666B6664), (0x13733, 0x666B6666),
  (0x13734, 0x666B6667), (0x13735, 0x666B6668), (0x13736, 0x666B6669), (0x13737, 0x666B666B), (0x13740, 0x666B6773),
  (0x13741, 0x666B6770), (0x13742, 0x666B6764), (0x13743, 0x666B6766), (0x13744, 0x666B6767), (0x13745, 0x666B6768),
  (0x13746, 0x666B6769), (0x13747, 0x666B676B), (0x13750, 0x666B6873), (0x13751, 0x666B6870), (0x13752, 0x666B6864),
  (0x13753, 0x666B6866), (0x13754, 0x666B6867), (0x13755, 0x666B6868), (0x13756, 0x666B6869), (0x13757, 0x666B686B),
  (0x13760, 0x666B6973), (0x13761, 0x666B6970), (0x13762, 0x666B6964), (0x13763, 0x666B6966), (0x13764, 0x666B6967),
  (0x13765, 0x666B6968), (0x13766, 0x666B6969), (0x13767, 0x666B696B), (0x13770, 0x666B6B73), (0x13771, 0x666B6B70),
  (0x13772, 0x666B6B64), (0x13773, 0x666B6B66), (0x13774, 0x666B6B67), (0x13775, 0x666B6B68), (0x13776, 0x666B6B69),
  (0x13777, 0x666B6B6B), (0x14007, 0x6773736B), (0x14017, 0x6773706B), (0x14027, 0x6773646B), (0x14037, 0x6773666B),
  (0x14047, 0x6773676B), (0x14057, 0x6773686B), (0x14067, 0x6773696B), (0x14070, 0x67736B73), (0x14071, 0x67736B70),
  (0x14072, 0x67736B64), (0x14073, 0x67736B66), (0x14074, 0x67736B67), (0x14075, 0x67736B68), (0x14076, 0x67736B69),
  (0x14077, 0x67736B6B), (0x14107, 0x6770736B), (0x14117, 0x6770706B), (0x14127, 0x6770646B), (0x14137, 0x6770666B),
  (0x14147, 0x6770676B), (0x14157, 0x6770686B), (0x14167, 0x6770696B), (0x14170, 0x67706B73), (0x14171, 0x67706B70)]

def init1_7_2 : List (ℕ × ℕ) := [
  (0x14172, 0x67706B64), (0x14173, 0x67706B66), (0x14174, 0x67706B67), (0x14175, 0x67706B68), (0x14176, 0x67706B69),
  (0x14177, 0x67706B6B), (0x14207, 0x6764736B), (0x14217, 0x6764706B), (0x14227, 0x6764646B), (0x14237, 0x6764666B),
  (0x14247, 0x6764676B), (0x14257, 0x6764686B), (0x14267, 0x6764696B), (0x14270, 0x67646B73), (0x14271, 0x67646B70),
  (0x14272, 0x67646B64), (0x14273, 0x67646B66), (0x14274, 0x67646B67), (0x14275, 0x67646B68), (0x14276, 0x67646B69),
  (0x14277, 0x67646B6B), (0x14307, 0x6766736B), (0x14317, 0x6766706B), (0x14327, 0x6766646B), (0x14337, 0x6766666B),
  (0x14347, 0x6766676B), (0x14357, 0x6766686B), (0x14367, 0x6766696B), (0x14370, 0x67666B73), (0x14371, 0x67666B70),
  (0x14372, 0x67666B64), (0x14373, 0x67666B66), (0x14374, 0x67666B67), (0x14375, 0x67666B68), (0x14376, 0x67666B69),
  (0x14377, 0x67666B6B), (0x14407, 0x6767736B), (0x14417, 0x6767706B), (0x14427, 0x6767646B), (0x14437, 0x6767666B),
  (0x14447, 0x6767676B), (0x14457, 0x6767686B), (0x14467, 0x6767696B), (0x14470, 0x67676B73), (0x14471, 0x67676B70),
  (0x14472, 0x67676B64), (0x14473, 0x67676B66), (0x14474, 0x67676B67), (0x14475, 0x67676B68), (0x14476, 0x67676B69),
  (0x14477, 0x67676B6B), (0x14507, 0x6768736B), (0x14517, 0x6768706B), (0x14527, 0x6768646B), (0x14537, 0x6768666B),
  (0x14547, 0x6768676B), (0x14557, 0x6768686B), (0x14567, 0x6768696B), (0x14570, 0x67686B73), (0x14571, 0x67686B70),
  (0x14572, 0x67686B64), (0x14573, 0x67686B66), (0x14574, 0x67686B67), (0x14575, 0x67686B68), (0x14576, 0x67686B69),
  (0x14577, 0x67686B6B), (0x14607, 0x6769736B), (0x14617, 0x6769706B), (0x14627, 0x6769646B), (0x14637, 0x6769666B),
  (0x14647, 0x6769676B), (0x14657, 0x6769686B), (0x14667, 0x6769696B), (0x14670, 0x67696B73), (0x14671, 0x67696B70),
  (0x14672, 0x67696B64), (0x14673, 0x67696B66), (0x14674, 0x67696B67), (0x14675, 0x67696B68), (0x14676, 0x67696B69),
  (0x14677, 0x67696B6B), (0x14700, 0x676B7373), (0x14701, 0x676B7370), (0x14702, 0x676B7364), (0x14703, 0x676B7366),
  (0x14704, 0x676B7367), (0x14705, 0x676B7368), (0x14706, 0x676B7369), (0x14707, 0x676B736B), (0x14710, 0x676B7073),
  (0x14711, 0x676B7070), (0x14712, 0x676B7064), (0x14713, 0x676B7066), (0x14714, 0x676B7067), (0x14715, 0x676B7068),
  (0x14716, 0x676B7069), (0x14717, 0x676B706B), (0x14720, 0x676B6473), (0x14721, 0x676B6470), (0x14722, 0x676B6464),
  (0x14723, 0x676B6466), (0x14724, 0x676B6467), (0x14725, 0x676B6468), (0x14726, 0x676B6469), (0x14727, 0x676B646B),
  (0x14730, 0x676B6673), (0x14731, 0x676B6670), (0x14732, 0x676B6664), (0x14733, 0x676B6666), (0x14734, 0x676B6667),
  (0x14735, 0x676B6668), (0x14736, 0x676B6669), (0x14737, 0x676B666B), (0x14740, 0x676B6773), (0x14741, 0x676B6770),
  (0x14742, 0x676B6764), (0x14743, 0x676B6766), (0x14744, 0x676B6767), (0x14745, 0x676B6768), (0x14746, 0x676B6769),
  (0x14747, 0x676B676B), (0x14750, 0x676B6873), (0x14751, 0x676B6870), (0x14752, 0x676B6864), (0x14753, 0x676B6866),
  (0x14754, 0x676B6867), (0x14755, 0x676B6868), (0x14756, 0x676B6869), (0x14757, 0x676B686B), (0x14760, 0x676B6973),
  (0x14761, 0x676B6970), (0x14762, 0x676B6964), (0x14763, 0x676B6966), (0x14764, 0x676B6967), (0x14765, 0x676B6968),
  (0x14766, 0x676B6969), (0x14767, 0x676B696B), (0x14770, 0x676B6B73), (0x14771, 0x676B6B70), (0x14772, 0x676B6B64),
  (0x14773, 0x676B6B66), (0x14774, 0x676B6B67), (0x14775, 0x676B6B68), (0x14776, 0x676B6B69), (0x14777, 0x676B6B6B),
  (0x15007, 0x6873736B), (0x15017, 0x6873706B), (0x15027, 0x6873646B), (0x15037, 0x6873666B), (0x15047, 0x6873676B),
  (0x15057, 0x6873686B), (0x15067, 0x6873696B), (0x15070, 0x68736B73), (0x15071, 0x68736B70), (0x15072, 0x68736B64),
  (0x15073, 0x68736B66), (0x15074, 0x68736B67), (0x15075, 0x68736B68), (0x15076, 0x68736B69), (0x15077, 0x68736B6B),
  (0x15107, 0x6870736B), (0x15117, 0x6870706B), (0x15127, 0x6870646B), (0x15137, 0x6870666B), (0x15147, 0x6870676B),
  (0x15157, 0x6870686B), (0x15167, 0x6870696B), (0x15170, 0x68706B73), (0x15171, 0x68706B70), (0x15172, 0x68706B64),
  (0x15173, 0x68706B66), (0x15174, 0x68706B67), (0x15175, 0x68706B68), (0x15176, 0x68706B69), (0x15177, 0x68706B6B),
  (0x15207, 0x6864736B), (0x15217, 0x6864706B), (0x15227, 0x6864646B), (0x15237, 0x6864666B), (0x15247, 0x6864676B),
  (0x15257, 0x6864686B), (0x15267, 0x6864696B), (0x15270, 0x68646B73), (0x15271, 0x68646B70), (0x15272, 0x68646B64),
  (0x15273, 0x68646B66), (0x15274, 0x68646B67), (0x15275, 0x68646B68), (0x15276, 0x68646B69), (0x15277, 0x68646B6B),
  (0x15307, 0x6866736B), (0x15317, 0x6866706B), (0x15327, 0x6866646B), (0x15337, 0x6866666B), (0x15347, 0x6866676B),
  (0x15357, 0x6866686B), (0x15367, 0x6866696B), (0x15370, 0x68666B73), (0x15371, 0x68666B70), (0x15372, 0x68666B64),
  (0x15373, 0x68666B66), (0x15374, 0x68666B67), (0x15375, 0x68666B68), (0x15376, 0x68666B69), (0x15377, 0x68666B6B),
  (0x15407, 0x6867736B), (0x15417, 0x6867706B), (0x15427, 0x6867646B), (0x15437, 0x6867666B), (0x15447, 0x6867676B),
  (0x15457, 0x6867686B), (0x15467, 0x6867696B), (0x15470, 0x68676B73), (0x15471, 0x68676B70), (0x15472, 0x68676B64),
  (0x15473, 0x68676B66), (0x15474, 0x68676B67), (0x15475, 0x68676B68), (0x15476, 0x68676B69), (0x15477, 0x68676B6B),
  (0x15507, 0x6868736B), (0x15517, 0x6868706B), (0x15527, 0x6868646B), (0x15537, 0x6868666B), (0x15547, 0x6868676B),
  (0x15557, 0x6868686B), (0x15567, 0x6868696B), (0x15570, 0x68686B73), (0x15571, 0x68686B70), (0x15572, 0x68686B64),
  (0x15573, 0x68686B66), (0x15574, 0x68686B67), (0x15575, 0x68686B68), (0x15576, 0x68686B69), (0x15577, 0x68686B6B),
  (0x15607, 0x6869736B), (0x15617, 0x6869706B), (0x15627, 0x6869646B), (0x15637, 0x6869666B), (0x15647, 0x6869676B),
  (0x15657, 0x6869686B), (0x15667, 0x6869696B), (0x15670, 0x68696B73), (0x15671, 0x68696B70), (0x15672, 0x68696B64),
  (0x15673, 0x68696B66), (0x15674, 0x68696B67), (0x15675, 0x68696B68), (0x15676, 0x68696B69), (0x15677, 0x68696B6B),
  (0x15700, 0x686B7373), (0x15701, 0x686B7370), (0x15702, 0x686B7364), (0x15703, 0x686B7366), (0x15704, 0x686B7367),
  (0x15705, 0x686B7368), (0x15706, 0x686B7369), (0x15707, 0x686B736B), (0x15710, 0x686B7073), (0x15711, 0x686B7070),
  (0x15712, 0x686B7064), (0x15713, 0x686B7066), (0x15714, 0x686B7067), (0x15715, 0x686B7068), (0x15716, 0x686B7069),
  (0x15717, 0x686B706B), (0x15720, 0x686B6473), (0x15721, 0x686B6470), (0x15722, 0x686B6464), (0x15723, 0x686B6466),
  (0x15724, 0x686B6467), (0x15725, 0x686B6468), (0x15726, 0x686B6469), (0x15727, 0x686B646B), (0x15730, 0x686B6673),
  (0x15731, 0x686B6670), (0x15732, 0x686B6664), (0x15733, 0x686B6666), (0x15734, 0x686B6667), (0x15735, 0x686B6668),
  (0x15736, 0x686B6669), (0x15737, 0x686B666B), (0x15740, 0x686B6773), (0x15741, 0x686B6770), (0x15742, 0x686B6764),
  (0x15743, 0x686B6766), (0x15744, 0x686B6767), (0x15745, 0x686B6768), (0x15746, 0x686B6769), (0x15747, 0x686B676B),
  (0x15750, 0x686B6873), (0x15751, 0x686B6870), (0x15752, 0x686B6864), (0x15753, 0x686B6866), (0x15754, 0x686B6867),
  (0x15755, 0x686B6868), (0x15756, 0x686B6869), (0x15757, 0x686B686B), (0x15760, 0x686B6973), (0x15761, 0x686B6970),
  (0x15762, 0x686B6964), (0x15763, 0x686B6966), (0x15764, 0x686B6967), (0x15765, 0x686B6968), (0x15766, 0x686B6969),
  (0x15767, 0x686B696B), (0x15770, 0x686B6B73), (0x15771, 0x686B6B70), (0x15772, 0x686B6B64), (0x15773, 0x686B6B66),
  (0x15774, 0x686B6B67), (0x15775, 0x686B6B68), (0x15776, 0x686B6B69), (0x15777, 0x686B6B6B), (0x16007, 0x6973736B),
  (0x16017, 0x6973706B), (0x16027, 0x6973646B), (0x16037, 0x6973666B), (0x16047, 0x6973676B), (0x16057, 0x6973686B),
  (0x16067, 0x6973696B), (0x16070, 0x69736B73), (0x16071, 0x69736B70), (0x16072, 0x69736B64), (0x16073, 0x69736B66),
  (0x16074, 0x69736B67), (0x16075, 0x69736B68), (0x16076, 0x69736B69), (0x16077, 0x69736B6B), (0x16107, 0x6970736B),
  (0x16117, 0x6970706B), (0x16127, 0x6970646B), (0x16137, 0x6970666B), (0x16147, 0x6970676B), (0x16157, 0x6970686B),
  (0x16167, 0x6970696B), (0x16170, 0x69706B73), (0x16171, 0x69706B70), (0x16172, 0x69706B64), (0x16173, 0x69706B66),
  (0x16174, 0x69706B67), (0x16175, 0x69706B68), (0x16176, 0x69706B69), (0x16177, 0x69706B6B), (0x16207, 0x6964736B),
  (0x16217, 0x6964706B), (0x16227, 0x6964646B), (0x16237, 0x6964666B), (0x16247, 0x6964676B), (0x16257, 0x6964686B)]

def init1_7_3 : List (ℕ × ℕ) := [
  (0x16267, 0x6964696B), (0x16270, 0x69646B73), (0x16271, 0x69646B70), (0x16272, 0x69646B64), (0x16273, 0x69646B66),
  (0x16274, 0x69646B67), (0x16275, 0x69646B68), (0x16276, 0x69646B69), (0x16277, 0x69646B6B), (0x16307, 0x6966736B),
  (0x16317, 0x6966706B), (0x16327, 0x6966646B), (0x16337, 0x6966666B), (0x16347, 0x6966676B), (0x16357, 0x6966686B),
  (0x16367, 0x6966696B), (0x16370, 0x69666B73), (0x16371, 0x69666B70), (0x16372, 0x69666B64), (0x16373, 0x69666B66),
  (0x16374, 0x69666B67), (0x16375, 0x69666B68), (0x16376, 0x69666B69), (0x16377, 0x69666B6B), (0x16407, 0x6967736B),
  (0x16417, 0x6967706B), (0x16427, 0x6967646B), (0x16437, 0x6967666B), (0x16447, 0x6967676B), (0x16457, 0x6967686B),
  (0x16467, 0x6967696B), (0x16470, 0x69676B73), (0x16471, 0x69676B70), (0x16472, 0x69676B64), (0x16473, 0x69676B66),
  (0x16474, 0x69676B67), (0x16475, 0x69676B68), (0x16476, 0x69676B69), (0x16477, 0x69676B6B), (0x16507, 0x6968736B),
  (0x16517, 0x6968706B), (0x16527, 0x6968646B), (0x16537, 0x6968666B), (0x16547, 0x6968676B), (0x16557, 0x6968686B),
  (0x16567, 0x6968696B), (0x16570, 0x69686B73), (0x16571, 0x69686B70), (0x16572, 0x69686B64), (0x16573, 0x69686B66),
  (0x16574, 0x69686B67), (0x16575, 0x69686B68), (0x16576, 0x69686B69), (0x16577, 0x69686B6B), (0x16607, 0x6969736B),
  (0x16617, 0x6969706B), (0x16627, 0x6969646B), (0x16637, 0x6969666B), (0x16647, 0x6969676B), (0x16657, 0x6969686B),
  (0x16667, 0x6969696B), (0x16670, 0x69696B73), (0x16671, 0x69696B70), (0x16672, 0x69696B64), (0x16673, 0x69696B66),
  (0x16674, 0x69696B67), (0x16675, 0x69696B68), (0x16676, 0x69696B69), (0x16677, 0x69696B6B), (0x16700, 0x696B7373),
  (0x16701, 0x696B7370), (0x16702, 0x696B7364), (0x16703, 0x696B7366), (0x16704, 0x696B7367), (0x16705, 0x696B7368),
  (0x16706, 0x696B7369), (0x16707, 0x696B736B), (0x16710, 0x696B7073), (0x16711, 0x696B7070), (0x16712, 0x696B7064),
  (0x16713, 0x696B7066), (0x16714, 0x696B7067), (0x16715, 0x696B7068), (0x16716, 0x696B7069), (0x16717, 0x696B706B),
  (0x16720, 0x696B6473), (0x16721, 0x696B6470), (0x16722, 0x696B6464), (0x16723, 0x696B6466), (0x16724, 0x696B6467),
  (0x16725, 0x696B6468), (0x16726, 0x696B6469), (0x16727, 0x696B646B), (0x16730, 0x696B6673), (0x16731, 0x696B6670),
  (0x16732, 0x696B6664), (0x16733, 0x696B6666), (0x16734, 0x696B6667), (0x16735, 0x696B6668), (0x16736, 0x696B6669),
  (0x16737, 0x696B666B), (0x16740, 0x696B6773), (0x16741, 0x696B6770), (0x16742, 0x696B6764), (0x16743, 0x696B6766),
  (0x16744, 0x696B6767), (0x16745, 0x696B6768), (0x16746, 0x696B6769), (0x16747, 0x696B676B), (0x16750, 0x696B6873),
  (0x16751, 0x696B6870), (0x16752, 0x696B6864), (0x16753, 0x696B6866), (0x16754, 0x696B6867), (0x16755, 0x696B6868),
  (0x16756, 0x696B6869), (0x16757, 0x696B686B), (0x16760, 0x696B6973), (0x16761, 0x696B6970), (0x16762, 0x696B6964),
  (0x16763, 0x696B6966), (0x16764, 0x696B6967), (0x16765, 0x696B6968), (0x16766, 0x696B6969), (0x16767, 0x696B696B),
  (0x16770, 0x696B6B73), (0x16771, 0x696B6B70), (0x16772, 0x696B6B64), (0x16773, 0x696B6B66), (0x16774, 0x696B6B67),
  (0x16775, 0x696B6B68), (0x16776, 0x696B6B69), (0x16777, 0x696B6B6B), (0x17000, 0x6B737373), (0x17001, 0x6B737370),
  (0x17002, 0x6B737364), (0x17003, 0x6B737366), (0x17004, 0x6B737367), (0x17005, 0x6B737368), (0x17006, 0x6B737369),
  (0x17007, 0x6B73736B), (0x17010, 0x6B737073), (0x17011, 0x6B737070), (0x17012, 0x6B737064), (0x17013, 0x6B737066),
  (0x17014, 0x6B737067), (0x17015, 0x6B737068), (0x17016, 0x6B737069), (0x17017, 0x6B73706B), (0x17020, 0x6B736473),
  (0x17021, 0x6B736470), (0x17022, 0x6B736464), (0x17023, 0x6B736466), (0x17024, 0x6B736467), (0x17025, 0x6B736468),
  (0x17026, 0x6B736469), (0x17027, 0x6B73646B), (0x17030, 0x6B736673), (0x17031, 0x6B736670), (0x17032, 0x6B736664),
  (0x17033, 0x6B736666), (0x17034, 0x6B736667), (0x17035, 0x6B736668), (0x17036, 0x6B736669), (0x17037, 0x6B73666B),
  (0x17040, 0x6B736773), (0x17041, 0x6B736770), (0x17042, 0x6B736764), (0x17043, 0x6B736766), (0x17044, 0x6B736767),
  (0x17045, 0x6B736768), (0x17046, 0x6B736769), (0x17047, 0x6B73676B), (0x17050, 0x6B736873), (0x17051, 0x6B736870),
  (0x17052, 0x6B736864), (0x17053, 0x6B736866), (0x17054, 0x6B736867), (0x17055, 0x6B736868), (0x17056, 0x6B736869),
  (0x17057, 0x6B73686B), (0x17060, 0x6B736973), (0x17061, 0x6B736970), (0x17062, 0x6B736964), (0x17063, 0x6B736966),
  (0x17064, 0x6B736967), (0x17065, 0x6B736968), (0x17066, 0x6B736969), (0x17067, 0x6B73696B), (0x17070, 0x6B736B73),
  (0x17071, 0x6B736B70), (0x17072, 0x6B736B64), (0x17073, 0x6B736B66), (0x17074, 0x6B736B67), (0x17075, 0x6B736B68),
  (0x17076, 0x6B736B69), (0x17077, 0x6B736B6B), (0x17100, 0x6B707373), (0x17101, 0x6B707370), (0x17102, 0x6B707364),
  (0x17103, 0x6B707366), (0x17104, 0x6B707367), (0x17105, 0x6B707368), (0x17106, 0x6B707369), (0x17107, 0x6B70736B),
  (0x17110, 0x6B707073), (0x17111, 0x6B707070), (0x17112, 0x6B707064), (0x17113, 0x6B707066), (0x17114, 0x6B707067),
  (0x17115, 0x6B707068), (0x17116, 0x6B707069), (0x17117, 0x6B70706B), (0x17120, 0x6B706473), (0x17121, 0x6B706470),
  (0x17122, 0x6B706464), (0x17123, 0x6B706466), (0x17124, 0x6B706467), (0x17125, 0x6B706468), (0x17126, 0x6B706469),
  (0x17127, 0x6B70646B), (0x17130, 0x6B706673), (0x17131, 0x6B706670), (0x17132, 0x6B706664), (0x17133, 0x6B706666),
  (0x17134, 0x6B706667), (0x17135, 0x6B706668), (0x17136, 0x6B706669), (0x17137, 0x6B70666B), (0x17140, 0x6B706773),
  (0x17141, 0x6B706770), (0x17142, 0x6B706764), (0x17143, 0x6B706766), (0x17144, 0x6B706767), (0x17145, 0x6B706768),
  (0x17146, 0x6B706769), (0x17147, 0x6B70676B), (0x17150, 0x6B706873), (0x17151, 0x6B706870), (0x17152, 0x6B706864),
  (0x17153, 0x6B706866), (0x17154, 0x6B706867), (0x17155, 0x6B706868), (0x17156, 0x6B706869), (0x17157, 0x6B70686B),
  (0x17160, 0x6B706973), (0x17161, 0x6B706970), (0x17162, 0x6B706964), (0x17163, 0x6B706966), (0x17164, 0x6B706967),
  (0x17165, 0x6B706968), (0x17166, 0x6B706969), (0x17167, 0x6B70696B), (0x17170, 0x6B706B73), (0x17171, 0x6B706B70),
  (0x17172, 0x6B706B64), (0x17173, 0x6B706B66), (0x17174, 0x6B706B67), (0x17175, 0x6B706B68), (0x17176, 0x6B706B69),
  (0x17177, 0x6B706B6B), (0x17200, 0x6B647373), (0x17201, 0x6B647370), (0x17202, 0x6B647364), (0x17203, 0x6B647366),
  (0x17204, 0x6B647367), (0x17205, 0x6B647368), (0x17206, 0x6B647369), (0x17207, 0x6B64736B), (0x17210, 0x6B647073),
  (0x17211, 0x6B647070), (0x17212, 0x6B647064), (0x17213, 0x6B647066), (0x17214, 0x6B647067), (0x17215, 0x6B647068),
  (0x17216, 0x6B647069), (0x17217, 0x6B64706B), (0x17220, 0x6B646473), (0x17221, 0x6B646470), (0x17222, 0x6B646464),
  (0x17223, 0x6B646466), (0x17224, 0x6B646467), (0x17225, 0x6B646468), (0x17226, 0x6B646469), (0x17227, 0x6B64646B),
  (0x17230, 0x6B646673), (0x17231, 0x6B646670), (0x17232, 0x6B646664), (0x17233, 0x6B646666), (0x17234, 0x6B646667),
  (0x17235, 0x6B646668), (0x17236, 0x6B646669), (0x17237, 0x6B64666B), (0x17240, 0x6B646773), (0x17241, 0x6B646770),
  (0x17242, 0x6B646764), (0x17243, 0x6B646766), (0x17244, 0x6B646767), (0x17245, 0x6B646768), (0x17246, 0x6B646769),
  (0x17247, 0x6B64676B), (0x17250, 0x6B646873), (0x17251, 0x6B646870), (0x17252, 0x6B646864), (0x17253, 0x6B646866),
  (0x17254, 0x6B646867), (0x17255, 0x6B646868), (0x17256, 0x6B646869), (0x17257, 0x6B64686B), (0x17260, 0x6B646973),
  (0x17261, 0x6B646970), (0x17262, 0x6B646964), (0x17263, 0x6B646966), (0x17264, 0x6B646967), (0x17265, 0x6B646968),
  (0x17266, 0x6B646969), (0x17267, 0x6B64696B), (0x17270, 0x6B646B73), (0x17271, 0x6B646B70), (0x17272, 0x6B646B64),
  (0x17273, 0x6B646B66), (0x17274, 0x6B646B67), (0x17275, 0x6B646B68), (0x17276, 0x6B646B69), (0x17277, 0x6B646B6B),
  (0x17300, 0x6B667373), (0x17301, 0x6B667370), (0x17302, 0x6B667364), (0x17303, 0x6B667366), (0x17304, 0x6B667367),
  (0x17305, 0x6B667368), (0x17306, 0x6B667369), (0x17307, 0x6B66736B), (0x17310, 0x6B667073), (0x17311, 0x6B667070),
  (0x17312, 0x6B667064), (0x17313, 0x6B667066), (0x17314, 0x6B667067), (0x17315, 0x6B667068), (0x17316, 0x6B667069),
  (0x17317, 0x6B66706B), (0x17320, 0x6B666473), (0x17321, 0x6B666470), (0x17322, 0x6B666464), (0x17323, 0x6B666466),
  (0x17324, 0x6B666467), (0x17325, 0x6B666468), (0x17326, 0x6B666469), (0x17327, 0x6B66646B), (0x17330, 0x6B666673)]

def init1_7_4 : List (ℕ × ℕ) := [
  (0x17331, 0x6B666670), (0x17332, 0x6B666664), (0x17333, 0x6B666666), (0x17334, 0x6B666667), (0x17335, 0x6B666668),
  (0x17336, 0x6B666669), (0x17337, 0x6B66666B), (0x17340, 0x6B666773), (0x17341, 0x6B666770), (0x17342, 0x6B666764),
  (0x17343, 0x6B666766), (0x17344, 0x6B666767), (0x17345, 0x6B666768), (0x17346, 0x6B666769), (0x17347, 0x6B66676B),
  (0x17350, 0x6B666873), (0x17351, 0x6B666870), (0x17352, 0x6B666864), (0x17353, 0x6B666866), (0x17354, 0x6B666867),
  (0x17355, 0x6B666868), (0x17356, 0x6B666869), (0x17357, 0x6B66686B), (0x17360, 0x6B666973), (0x17361, 0x6B666970),
  (0x17362, 0x6B666964), (0x17363, 0x6B666966), (0x17364, 0x6B666967), (0x17365, 0x6B666968), (0x17366, 0x6B666969),
  (0x17367, 0x6B66696B), (0x17370, 0x6B666B73), (0x17371, 0x6B666B70), (0x17372, 0x6B666B64), (0x17373, 0x6B666B66),
  (0x17374, 0x6B666B67), (0x17375, 0x6B666B68), (0x17376, 0x6B666B69), (0x17377, 0x6B666B6B), (0x17400, 0x6B677373),
  (0x17401, 0x6B677370), (0x17402, 0x6B677364), (0x17403, 0x6B677366), (0x17404, 0x6B677367), (0x17405, 0x6B677368),
  (0x17406, 0x6B677369), (0x17407, 0x6B67736B), (0x17410, 0x6B677073), (0x17411, 0x6B677070), (0x17412, 0x6B677064),
  (0x17413, 0x6B677066), (0x17414, 0x6B677067), (0x17415, 0x6B677068), (0x17416, 0x6B677069), (0x17417, 0x6B67706B),
  (0x17420, 0x6B676473), (0x17421, 0x6B676470), (0x17422, 0x6B676464), (0x17423, 0x6B676466), (0x17424, 0x6B676467),
  (0x17425, 0x6B676468), (0x17426, 0x6B676469), (0x17427, 0x6B67646B), (0x17430, 0x6B676673), (0x17431, 0x6B676670),
  (0x17432, 0x6B676664), (0x17433, 0x6B676666), (0x17434, 0x6B676667), (0x17435, 0x6B676668), (0x17436, 0x6B676669),
  (0x17437, 0x6B67666B), (0x17440, 0x6B676773), (0x17441, 0x6B676770), (0x17442, 0x6B676764), (0x17443, 0x6B676766),
  (0x17444, 0x6B676767), (0x17445, 0x6B676768), (0x17446, 0x6B676769), (0x17447, 0x6B67676B), (0x17450, 0x6B676873),
  (0x17451, 0x6B676870), (0x17452, 0x6B676864), (0x17453, 0x6B676866), (0x17454, 0x6B676867), (0x17455, 0x6B676868),
  (0x17456, 0x6B676869), (0x17457, 0x6B67686B), (0x17460, 0x6B676973), (0x17461, 0x6B676970), (0x17462, 0x6B676964),
  (0x17463, 0x6B676966), (0x17464, 0x6B676967), (0x17465, 0x6B676968), (0x17466, 0x6B676969), (0x17467, 0x6B67696B),
  (0x17470, 0x6B676B73), (0x17471, 0x6B676B70), (0x17472, 0x6B676B64), (0x17473, 0x6B676B66), (0x17474, 0x6B676B67),
  (0x17475, 0x6B676B68), (0x17476, 0x6B676B69), (0x17477, 0x6B676B6B), (0x17500, 0x6B687373), (0x17501, 0x6B687370),
  (0x17502, 0x6B687364), (0x17503, 0x6B687366), (0x17504, 0x6B687367), (0x17505, 0x6B687368), (0x17506, 0x6B687369),
  (0x17507, 0x6B68736B), (0x17510, 0x6B687073), (0x17511, 0x6B687070), (0x17512, 0x6B687064), (0x17513, 0x6B687066),
  (0x17514, 0x6B687067), (0x17515, 0x6B687068), (0x17516, 0x6B687069), (0x17517, 0x6B68706B), (0x17520, 0x6B686473),
  (0x17521, 0x6B686470), (0x17522, 0x6B686464), (0x17523, 0x6B686466), (0x17524, 0x6B686467), (0x17525, 0x6B686468),
  (0x17526, 0x6B686469), (0x17527, 0x6B68646B), (0x17530, 0x6B686673), (0x17531, 0x6B686670), (0x17532, 0x6B686664),
  (0x17533, 0x6B686666), (0x17534, 0x6B686667), (0x17535, 0x6B686668), (0x17536, 0x6B686669), (0x17537, 0x6B68666B),
  (0x17540, 0x6B686773), (0x17541, 0x6B686770), (0x17542, 0x6B686764), (0x17543, 0x6B686766), (0x17544, 0x6B686767),
  (0x17545, 0x6B686768), (0x17546, 0x6B686769), (0x17547, 0x6B68676B), (0x17550, 0x6B686873), (0x17551, 0x6B686870),
  (0x17552, 0x6B686864), (0x17553, 0x6B686866), (0x17554, 0x6B686867), (0x17555, 0x6B686868), (0x17556, 0x6B686869),
  (0x17557, 0x6B68686B), (0x17560, 0x6B686973), (0x17561, 0x6B686970), (0x17562, 0x6B686964), (0x17563, 0x6B686966),
  (0x17564, 0x6B686967), (0x17565, 0x6B686968), (0x17566, 0x6B686969), (0x17567, 0x6B68696B), (0x17570, 0x6B686B73),
  (0x17571, 0x6B686B70), (0x17572, 0x6B686B64), (0x17573, 0x6B686B66), (0x17574, 0x6B686B67), (0x17575, 0x6B686B68),
  (0x17576, 0x6B686B69), (0x17577, 0x6B686B6B), (0x17600, 0x6B697373), (0x17601, 0x6B697370), (0x17602, 0x6B697364),
  (0x17603, 0x6B697366), (0x17604, 0x6B697367), (0x17605, 0x6B697368), (0x17606, 0x6B697369), (0x17607, 0x6B69736B),
  (0x17610, 0x6B697073), (0x17611, 0x6B697070), (0x17612, 0x6B697064), (0x17613, 0x6B697066), (0x17614, 0x6B697067),
  (0x17615, 0x6B697068), (0x17616, 0x6B697069), (0x17617, 0x6B69706B), (0x17620, 0x6B696473), (0x17621, 0x6B696470),
  (0x17622, 0x6B696464), (0x17623, 0x6B696466), (0x17624, 0x6B696467), (0x17625, 0x6B696468), (0x17626, 0x6B696469),
  (0x17627, 0x6B69646B), (0x17630, 0x6B696673), (0x17631, 0x6B696670), (0x17632, 0x6B696664), (0x17633, 0x6B696666),
  (0x17634, 0x6B696667), (0x17635, 0x6B696668), (0x17636, 0x6B696669), (0x17637, 0x6B69666B), (0x17640, 0x6B696773),
  (0x17641, 0x6B696770), (0x17642, 0x6B696764), (0x17643, 0x6B696766), (0x17644, 0x6B696767), (0x17645, 0x6B696768),
  (0x17646, 0x6B696769), (0x17647, 0x6B69676B), (0x17650, 0x6B696873), (0x17651, 0x6B696870), (0x17652, 0x6B696864),
  (0x17653, 0x6B696866), (0x17654, 0x6B696867), (0x17655, 0x6B696868), (0x17656, 0x6B696869), (0x17657, 0x6B69686B),
  (0x17660, 0x6B696973), (0x17661, 0x6B696970), (0x17662, 0x6B696964), (0x17663, 0x6B696966), (0x17664, 0x6B696967),
  (0x17665, 0x6B696968), (0x17666, 0x6B696969), (0x17667, 0x6B69696B), (0x17670, 0x6B696B73), (0x17671, 0x6B696B70),
  (0x17672, 0x6B696B64), (0x17673, 0x6B696B66), (0x17674, 0x6B696B67), (0x17675, 0x6B696B68), (0x17676, 0x6B696B69),
  (0x17677, 0x6B696B6B), (0x17700, 0x6B6B7373), (0x17701, 0x6B6B7370), (0x17702, 0x6B6B7364), (0x17703, 0x6B6B7366),
  (0x17704, 0x6B6B7367), (0x17705, 0x6B6B7368), (0x17706, 0x6B6B7369), (0x17707, 0x6B6B736B), (0x17710, 0x6B6B7073),
  (0x17711, 0x6B6B7070), (0x17712, 0x6B6B7064), (0x17713, 0x6B6B7066), (0x17714, 0x6B6B7067), (0x17715, 0x6B6B7068),
  (0x17716, 0x6B6B7069), (0x17717, 0x6B6B706B), (0x17720, 0x6B6B6473), (0x17721, 0x6B6B6470), (0x17722, 0x6B6B6464),
  (0x17723, 0x6B6B6466), (0x17724, 0x6B6B6467), (0x17725, 0x6B6B6468), (0x17726, 0x6B6B6469), (0x17727, 0x6B6B646B),
  (0x17730, 0x6B6B6673), (0x17731, 0x6B6B6670), (0x17732, 0x6B6B6664), (0x17733, 0x6B6B6666), (0x17734, 0x6B6B6667),
  (0x17735, 0x6B6B6668), (0x17736, 0x6B6B6669), (0x17737, 0x6B6B666B), (0x17740, 0x6B6B6773), (0x17741, 0x6B6B6770),
  (0x17742, 0x6B6B6764), (0x17743, 0x6B6B6766), (0x17744, 0x6B6B6767), (0x17745, 0x6B6B6768), (0x17746, 0x6B6B6769),
  (0x17747, 0x6B6B676B), (0x17750, 0x6B6B6873), (0x17751, 0x6B6B6870), (0x17752, 0x6B6B6864), (0x17753, 0x6B6B6866),
  (0x17754, 0x6B6B6867), (0x17755, 0x6B6B6868), (0x17756, 0x6B6B6869), (0x17757, 0x6B6B686B), (0x17760, 0x6B6B6973),
  (0x17761, 0x6B6B6970), (0x17762, 0x6B6B6964), (0x17763, 0x6B6B6966), (0x17764, 0x6B6B6967), (0x17765, 0x6B6B6968),
  (0x17766, 0x6B6B6969), (0x17767, 0x6B6B696B), (0x17770, 0x6B6B6B73), (0x17771, 0x6B6B6B70), (0x17772, 0x6B6B6B64),
  (0x17773, 0x6B6B6B66), (0x17774, 0x6B6B6B67), (0x17775, 0x6B6B6B68), (0x17776, 0x6B6B6B69), (0x17777, 0x6B6B6B6B)]

def init1_7 : List (ℕ × ℕ) :=
  init1_7_0 ++ init1_7_1 ++ init1_7_2 ++ init1_7_3 ++ init1_7_4

/-- All blocks of `ostei_deriv1_init.c`. -/
def init1 : List (ℕ × List (ℕ × ℕ)) := [
  (0, init1_0),
  (1, init1_1),
  (2, init1_2),
  (3, init1_3),
  (4, init1_4),
  (5, init1_5),
  (6, init1_6),
  (7, init1_7)]

end Simint.Tables
