import Verif.Lemmas.SidhRun
/-
The first test vector of /repo/dh/sidh/testdata/PQCkemKAT_374.rsp (SIKEp434), and the values that occur in its
calculation.  Printed by gen/kat.py.
-/
namespace Lemmas.SikeKat
open Model Model.Sidh Lemmas.SidhRun

/-- the first 16 bytes of sk -/
def S : List Byte := [124, 153, 53, 160, 176, 118, 148, 170, 12, 109, 16, 228, 219, 107, 26, 221]

/-- the following 28 bytes of sk: the scalar -/
def sk : List Byte := [145, 40, 34, 20, 101, 76, 181, 94, 124, 44, 172, 213, 57, 25, 96, 77, 91, 172, 123, 35, 238, 244, 179, 21, 254, 239, 94, 1]

def pk : List Byte := [68, 132, 215, 170, 219, 68, 180, 12, 193, 128, 220, 86, 139, 44, 20, 42, 96, 230, 226, 134, 63, 89, 136, 97, 74, 98, 21, 37, 75,
  47, 95, 111, 121, 180, 143, 50, 154, 209, 162, 222, 210, 11, 122, 186, 177, 15, 125, 191, 89, 195, 226, 11, 89, 167, 0, 9, 48, 96,
  210, 164, 74, 205, 192, 8, 58, 83, 207, 8, 8, 224, 179, 168, 39, 196, 81, 118, 190, 224, 220, 110, 199, 204, 22, 70, 30, 56, 70,
  28, 18, 69, 27, 185, 81, 145, 64, 124, 30, 148, 43, 181, 13, 76, 123, 37, 164, 156, 100, 75, 99, 1, 89, 230, 196, 3, 101, 56, 56,
  230, 137, 251, 244, 167, 173, 234, 105, 62, 208, 101, 123, 164, 167, 36, 120, 106, 247, 149, 63, 123, 166, 225, 95, 155, 191, 159,
  80, 7, 251, 113, 21, 105, 231, 42, 202, 176, 93, 52, 99, 164, 88, 83, 108, 171, 100, 127, 0, 194, 5, 210, 125, 83, 17, 178, 165,
  17, 61, 75, 38, 84, 128, 0, 219, 35, 117, 21, 147, 26, 4, 8, 4, 231, 105, 54, 31, 148, 255, 1, 103, 199, 131, 83, 210, 99, 10, 30,
  111, 89, 90, 31, 128, 232, 127, 106, 91, 205, 103, 157, 122, 100, 197, 0, 111, 97, 145, 212, 173, 239, 161, 234, 103, 246, 56, 139,
  112, 23, 212, 83, 244, 254, 45, 254, 128, 204, 199, 9, 0, 11, 82, 23, 91, 252, 58, 222, 82, 236, 203, 12, 235, 225, 101, 79, 137,
  211, 145, 49, 195, 87, 234, 203, 97, 229, 241, 60, 128, 171, 1, 101, 183, 113, 77, 107, 230, 223, 101, 248, 222, 115, 255, 71, 183,
  243, 48, 70, 57, 240, 144, 54, 83, 236, 207, 162, 82, 246, 226, 16, 76, 74, 186, 211, 195, 58, 242, 79, 208, 229, 111, 88, 219,
  146, 204, 102, 133, 151, 102, 3, 84, 25, 171, 45, 246, 0]

def ct : List Byte := [15, 222, 178, 109, 189, 150, 224, 205, 39, 34, 131, 202, 91, 221, 20, 53, 188, 154, 127, 154, 183, 252, 36, 248, 60, 169, 38, 222,
  237, 3, 138, 228, 228, 127, 57, 249, 136, 110, 11, 215, 238, 190, 170, 205, 18, 171, 67, 92, 201, 42, 163, 56, 59, 44, 1, 230, 185,
  224, 43, 195, 190, 249, 198, 194, 113, 144, 20, 86, 42, 150, 160, 243, 231, 132, 227, 250, 68, 229, 198, 46, 216, 206, 167, 158,
  17, 8, 182, 254, 205, 91, 248, 131, 107, 242, 218, 233, 254, 177, 134, 60, 76, 139, 52, 41, 34, 14, 39, 151, 246, 1, 251, 75, 142,
  186, 253, 212, 241, 115, 85, 80, 141, 37, 156, 166, 7, 33, 209, 103, 246, 229, 72, 11, 81, 51, 232, 36, 247, 109, 50, 64, 233, 127,
  49, 50, 93, 187, 154, 83, 233, 163, 238, 226, 224, 113, 39, 52, 130, 86, 21, 160, 39, 133, 126, 32, 0, 212, 208, 14, 17, 152, 132,
  153, 167, 56, 69, 44, 147, 218, 137, 91, 250, 14, 16, 41, 72, 149, 204, 242, 94, 60, 38, 28, 190, 56, 245, 215, 225, 154, 190, 78,
  50, 32, 148, 203, 141, 236, 91, 247, 72, 73, 2, 186, 189, 227, 60, 198, 149, 149, 246, 1, 59, 32, 170, 186, 150, 152, 193, 222,
  162, 188, 111, 101, 213, 117, 25, 41, 78, 111, 238, 163, 181, 73, 89, 157, 72, 9, 72, 55, 77, 45, 33, 182, 67, 87, 60, 39, 110, 26,
  91, 7, 69, 48, 31, 100, 141, 121, 130, 171, 70, 163, 6, 86, 57, 150, 1, 130, 191, 54, 88, 25, 239, 192, 212, 230, 30, 135, 210,
  130, 13, 188, 14, 132, 158, 153, 232, 117, 178, 21, 1, 209, 202, 117, 136, 161, 212, 88, 205, 112, 199, 223, 121, 61, 73, 147, 185,
  177, 103, 152, 134, 202, 232, 1, 58, 141, 216, 84, 240, 16, 161, 0, 201, 147, 63, 166, 66, 220, 10, 234, 153, 133, 120, 110, 211,
  107, 152, 211]

def ss : List Byte := [53, 247, 248, 255, 56, 135, 20, 222, 220, 65, 241, 57, 7, 140, 237, 201]

/-- the message -/
def m : List Byte := [207, 146, 151, 212, 60, 62, 118, 58, 27, 150, 214, 88, 66, 142, 195, 86]

/-- the scalar of the sender -/
def r : List Byte := [125, 121, 111, 225, 56, 219, 228, 211, 94, 35, 63, 20, 103, 127, 111, 85, 158, 10, 161, 62, 151, 118, 6, 105, 85, 120, 212, 0]

/-- p434 -/
def p : Nat := 24439423661345221551909145011457493619085780243761596511325807336205221239331976725970216671828618445898719026692884939342314733567

/-- the field elements of pk -/
def pkN : Tri N2 := ⟨(7250004339464031839323148052642299726012848373652030333894390873175463584916927360592838011448891745487826550689357019812686431300,
   15392410994260758383278322813026629490370813984278854554322952372009237799306948317462469179336575266770369213192761160227398627337),
  (5519052777366378822766572261618794535814019468614596383302906707355300647719853506740551918396194586075987135689561861406413088345,
   8551627990305130454615825915070677555905512092231387313654719861682534189788345333691295104378664164869850378727817330314947200450),
  (18520607385441735132512385767125919011812765671071923040695835520813285067392603079127378659184520412319070768862143763302275178863,
   10665177607511690602648852365641956013438651956927238105835089672284383712475767493501608440112473783487272671910048837968342398821)⟩

/-- the field elements of ct -/
def ctN : Tri N2 := ⟨(13006911221016494325849088861789277033634926152050168513867584519639394778195851838414251064704458851155934730425914326171790794255,
   21773707510468557149040913006551503378200149823098037636147487598957661243478217884862445518769361970609633479445343810715320891878),
  (1407745891156046967877977663173543947998452164826419068512003481653878129918970769342924457300961080836317460430700186092297931771,
   21773442241372690677804913653910734518029098380950565578363662327163410334605063884865362739858136906792058842069675077749770735828),
  (17598826368729273255658123599879842354839821941800754722875285063432057179370170611618775719954873881584870173322451197808159105083,
   6977863757046677104026821583195449360086815293227773882066791422135791023577169003412942318955167722474529930478833426679756930946)⟩

/-- the j-invariant -/
def jN : N2 := (22507078063140459729109624066535928449955404568491669170815942328129122687112984345510513235125546738175456178669014901976648838618,
  18482617287451391366310325424172528128296424529826440409993520727610497053960379848244901195071619137056285227982410513906946769272)

end Lemmas.SikeKat
