import Mathlib.Data.Int.Notation
import Verif.Common.Chars

/-!
# The `j0` coefficients of `neutronpy/database/magnetic_form_factors.json`

Generated from the file; the seven coefficients that `calc_mag_form_fac` uses, times 10^4.
-/

namespace Verif.Structure

/-- database/magnetic_form_factors.json, first half: ion and `j0`. -/
def formFactors1 : List (List Char × List ℤ) := [
  (cs!"Am2+", [4743, 217760, 15800, 56900, -10779, 41450, 218]),
  (cs!"Am3+", [4239, 195740, 14573, 58720, -9052, 39680, 238]),
  (cs!"Am4+", [3737, 178620, 13521, 60430, -7514, 37200, 258]),
  (cs!"Am5+", [2956, 173720, 14525, 60730, -7755, 36620, 277]),
  (cs!"Am6+", [2302, 169530, 14864, 61160, -7457, 35430, 294]),
  (cs!"Am7+", [3601, 127300, 19640, 51200, -13560, 37140, 316]),
  (cs!"Ce2+", [2953, 176850, 2923, 67330, 4313, 53830, -194]),
  (cs!"Ce3+", [2407, 176350, 3034, 57528, 4748, 57529, -192]),
  (cs!"Co", [4139, 161620, 6013, 47800, -1518, 210, 1345]),
  (cs!"Co+", [990, 331250, 3645, 151770, 5470, 50080, -109]),
  (cs!"Co2+", [4332, 143550, 5857, 46080, -382, 1340, 179]),
  (cs!"Co3+", [3902, 125080, 6324, 44570, -1500, 340, 1272]),
  (cs!"Co4+", [3515, 107780, 6778, 42340, -389, 2410, 98]),
  (cs!"Cr", [1135, 451990, 3481, 194930, 5477, 73540, -92]),
  (cs!"Cr+", [-977, 470, 4544, 260050, 5579, 74890, 831]),
  (cs!"Cr2+", [12024, -50, 4158, 205480, 6032, 69560, -12218]),
  (cs!"Cr3+", [-3094, 270, 3680, 170350, 6559, 65240, 2856]),
  (cs!"Cr4+", [-2320, 430, 3101, 149520, 7182, 61730, 2042]),
  (cs!"Cu", [909, 349840, 4088, 114430, 5128, 38250, -124]),
  (cs!"Cu+", [749, 349660, 4147, 117640, 5238, 38500, -127]),
  (cs!"Cu2+", [232, 349690, 4023, 115640, 5882, 38430, -137]),
  (cs!"Cu3+", [31, 349070, 3582, 109140, 6531, 38280, -147]),
  (cs!"Cu4+", [-132, 306820, 2801, 111630, 7490, 38170, -165]),
  (cs!"Dy2+", [1308, 183160, 3118, 76650, 5795, 31470, -226]),
  (cs!"Dy3+", [1157, 150730, 3270, 67990, 5821, 30200, -249]),
  (cs!"Er2+", [1122, 181220, 3462, 69110, 5649, 27610, -235]),
  (cs!"Er3+", [586, 179800, 3540, 70960, 6126, 27480, -251]),
  (cs!"Eu2+", [755, 252960, 3001, 115990, 6438, 40250, -196]),
  (cs!"Eu3+", [204, 253080, 3010, 114740, 7005, 39420, -220]),
  (cs!"Fe", [706, 350080, 3589, 153580, 5819, 55610, -114]),
  (cs!"Fe+", [1251, 349630, 3629, 155140, 5223, 55910, -105]),
  (cs!"Fe2+", [263, 349600, 3668, 159430, 6188, 55940, -119]),
  (cs!"Fe3+", [3972, 132440, 6295, 49030, -314, 3500, 44]),
  (cs!"Fe4+", [3782, 113800, 6556, 45920, -346, 4830, 5]),
  (cs!"Gd2+", [636, 253820, 3033, 112120, 6528, 37880, -199]),
  (cs!"Gd3+", [186, 253870, 2895, 111420, 7135, 37520, -217]),
  (cs!"Ho2+", [995, 181760, 3305, 78560, 5921, 29800, -230]),
  (cs!"Ho3+", [566, 183180, 3365, 76880, 6317, 29430, -248]),
  (cs!"Mn", [2438, 249630, 1472, 156730, 6189, 65400, -105]),
  (cs!"Mn+", [-138, 4210, 4231, 246680, 5905, 66550, -10]),
  (cs!"Mn2+", [4220, 176840, 5948, 60050, 43, -6090, -219]),
  (cs!"Mn3+", [4198, 142830, 6054, 54690, 9241, -90, -9498]),
  (cs!"Mn4+", [3760, 125660, 6602, 51330, -372, 5630, 11]),
  (cs!"Mo", [1806, 490570, 12306, 147860, -4268, 69870, 171]),
  (cs!"Mo+", [3500, 480350, 10305, 150600, -3929, 74790, 139]),
  (cs!"Nb", [3946, 492300, 13197, 148220, -7269, 96160, 129]),
  (cs!"Nd2+", [1645, 250450, 2522, 119780, 6012, 49460, -180])]

/-- database/magnetic_form_factors.json, second half. -/
def formFactors2 : List (List Char × List ℤ) := [
  (cs!"Nd3+", [540, 250290, 3101, 121020, 6575, 47220, -216]),
  (cs!"Ni", [-172, 357390, 3174, 142690, 7136, 45660, -143]),
  (cs!"Ni+", [705, 358560, 3984, 138040, 5427, 43970, -118]),
  (cs!"Ni2+", [163, 358830, 3916, 132230, 6052, 43390, -133]),
  (cs!"Ni3+", [-134, 358680, 2678, 123330, 7614, 42370, -162]),
  (cs!"Ni4+", [-90, 358610, 2776, 117900, 7474, 42010, -163]),
  (cs!"Np3+", [5157, 208650, 22784, 58930, -18163, 48460, 211]),
  (cs!"Np4+", [4206, 198050, 28004, 59780, -22436, 49850, 228]),
  (cs!"Np5+", [3692, 181900, 31510, 58500, -25446, 49160, 248]),
  (cs!"Np6+", [2929, 175610, 34866, 57850, -28066, 48710, 267]),
  (cs!"Pd", [2003, 293630, 11446, 95990, -3689, 40420, 251]),
  (cs!"Pd+", [5033, 245040, 19982, 69080, -15240, 55130, 213]),
  (cs!"Pu3+", [3840, 166790, 31049, 54210, -25148, 45510, 263]),
  (cs!"Pu4+", [4934, 168360, 16394, 56380, -11581, 41400, 248]),
  (cs!"Pu5+", [3888, 165590, 20362, 56570, -14515, 42550, 267]),
  (cs!"Pu6+", [3172, 160510, 34654, 53510, -28102, 45130, 281]),
  (cs!"Rh", [976, 498820, 11601, 118310, -2789, 41270, 234]),
  (cs!"Rh+", [3342, 297560, 12209, 94380, -5755, 53320, 210]),
  (cs!"Ru", [1069, 494240, 11912, 127420, -3176, 49120, 213]),
  (cs!"Ru+", [4410, 333090, 14775, 95530, -9361, 67220, 176]),
  (cs!"Sc", [2512, 900300, 3290, 394020, 4235, 143220, -43]),
  (cs!"Sc+", [4889, 511600, 5203, 140760, -286, 1790, 185]),
  (cs!"Sc2+", [5048, 314030, 5186, 109900, -241, 11830, 0]),
  (cs!"Sm2+", [909, 252030, 3037, 118560, 6250, 42370, -200]),
  (cs!"Sm3+", [288, 252070, 2973, 118310, 6954, 42120, -213]),
  (cs!"Tb2+", [547, 255090, 3171, 105910, 6490, 35170, -212]),
  (cs!"Tb3+", [177, 255100, 2921, 105770, 7133, 35120, -231]),
  (cs!"Tc", [1298, 496610, 11656, 141310, -3134, 55130, 195]),
  (cs!"Tc+", [2674, 489570, 9569, 151410, -2387, 54580, 160]),
  (cs!"Ti", [4657, 335900, 5490, 98790, -291, 3230, 123]),
  (cs!"Ti+", [5093, 367030, 5032, 103710, -263, 3110, 116]),
  (cs!"Ti2+", [5091, 249760, 5162, 87570, -281, 9160, 15]),
  (cs!"Ti3+", [3571, 228410, 6688, 89310, -354, 4830, 99]),
  (cs!"Tm2+", [983, 183240, 3380, 69180, 5875, 26620, -241]),
  (cs!"Tm3+", [581, 150920, 2787, 78010, 6854, 27930, -224]),
  (cs!"U3+", [5058, 232880, 13464, 70030, -8724, 48680, 192]),
  (cs!"U4+", [3291, 235480, 10836, 84540, -4340, 41200, 214]),
  (cs!"U5+", [3650, 198040, 32199, 62820, -26077, 53010, 233]),
  (cs!"V", [4086, 288110, 6077, 85440, -295, 2770, 123]),
  (cs!"V+", [4444, 326480, 5683, 90970, -2285, 220, 2150]),
  (cs!"V2+", [4085, 238530, 6091, 82460, -1676, 410, 1496]),
  (cs!"V3+", [3598, 193360, 6632, 76170, -3064, 300, 2835]),
  (cs!"V4+", [3106, 168160, 7198, 70490, -521, 3020, 221]),
  (cs!"Y", [5915, 676080, 15123, 179000, -11130, 141360, 80]),
  (cs!"Yb2+", [855, 185120, 2943, 73730, 6412, 26780, -213]),
  (cs!"Yb3+", [416, 160950, 2849, 78340, 6961, 26720, -229]),
  (cs!"Zr", [4106, 599960, 10543, 186480, -4751, 105400, 106]),
  (cs!"Zr+", [4532, 595950, 7834, 214360, -2451, 90360, 98])]

/-- database/magnetic_form_factors.json. -/
def formFactors : List (List Char × List ℤ) := formFactors1 ++ formFactors2

end Verif.Structure
