import Verif.Model.Chebyshev

/-!
# Vandermonde tables

`singularity-opac/chebyshev/vandermonde.hpp`, transcribed digit by digit.  A table is a list of rows; the
value `a(i,j)` of a table used as a matrix is `Table.at`.
-/

namespace Opac.Chebyshev
open Arith

/-- a `constexpr Real[n][n]` array as written in the source -/
abbrev Table := List (List ℚ)

/-- entry `[i][j]` -/
def Table.entry (t : Table) (i j : ℕ) : ℚ := (t.getD i []).getD j 0

/-- entry `[i][j]` as a `Real` -/
def Table.at {R : Type} [Arith R] (t : Table) (i j : ℕ) : R := lit (t.entry i j)

/-- `chebyshev/vandermonde.hpp:31-34` -/
def Vandermonde3 : Table :=
  [[0.33333333333333, 0.33333333333333, 0.33333333333333],
   [-0.57735026918963, 0, 0.57735026918963],
   [0.33333333333333, -0.66666666666667, 0.33333333333333]]

/-- `chebyshev/vandermonde.hpp:35-45` -/
def Vandermonde5 : Table :=
  [[0.20000000000000, 0.20000000000000, 0.20000000000000, 0.20000000000000, 0.20000000000000],
   [-0.38042260651806, -0.23511410091699, 0, 0.23511410091699, 0.38042260651806],
   [0.32360679774998, -0.12360679774998, -0.40000000000000, -0.12360679774998, 0.32360679774998],
   [-0.23511410091699, 0.38042260651806, 0, -0.38042260651806, 0.23511410091699],
   [0.12360679774998, -0.32360679774998, 0.40000000000000, -0.32360679774998, 0.12360679774998]]

/-- `chebyshev/vandermonde.hpp:46-60` -/
def Vandermonde7 : Table :=
  [[0.14285714285714, 0.14285714285714, 0.14285714285714, 0.14285714285714, 0.14285714285714,
    0.14285714285714, 0.14285714285714],
   [-0.27855083205195, -0.22338042356229, -0.12396678260502, 0, 0.12396678260502, 0.22338042356229,
    0.27855083205195],
   [0.25741967654355, 0.063577409701804, -0.17813994338821, -0.28571428571429, -0.17813994338821,
    0.063577409701804, 0.25741967654355],
   [-0.22338042356229, 0.12396678260502, 0.27855083205195, 0, -0.27855083205195, -0.12396678260502,
    0.22338042356229],
   [0.17813994338821, -0.25741967654355, -0.063577409701804, 0.28571428571429, -0.063577409701804,
    -0.25741967654355, 0.17813994338821],
   [-0.12396678260502, 0.27855083205195, -0.22338042356229, 0, 0.22338042356229, -0.27855083205195,
    0.12396678260502],
   [0.063577409701804, -0.17813994338821, 0.25741967654355, -0.28571428571429, 0.25741967654355,
    -0.17813994338821, 0.063577409701804]]

/-- `chebyshev/vandermonde.hpp:803-829` -/
def Vandermonde9 : Table :=
  [[0.11111111111111, 0.11111111111111, 0.11111111111111, 0.11111111111111, 0.11111111111111,
    0.11111111111111, 0.11111111111111, 0.11111111111111, 0.11111111111111],
   [-0.21884616733605, -0.19245008972988, -0.14284169104145, -0.076004476294593, 0, 0.076004476294593,
    0.14284169104145, 0.19245008972988, 0.21884616733605],
   [0.20882058239687, 0.11111111111111, -0.038588483925985, -0.17023209847088, -0.22222222222222,
    -0.17023209847088, -0.038588483925985, 0.11111111111111, 0.20882058239687],
   [-0.19245008972988, 0, 0.19245008972988, 0.19245008972988, 0, -0.19245008972988, -0.19245008972988,
    0, 0.19245008972988],
   [0.17023209847088, -0.11111111111111, -0.20882058239687, 0.038588483925985, 0.22222222222222,
    0.038588483925985, -0.20882058239687, -0.11111111111111, 0.17023209847088],
   [-0.14284169104145, 0.19245008972988, 0.076004476294593, -0.21884616733605, 0, 0.21884616733605,
    -0.076004476294593, -0.19245008972988, 0.14284169104145],
   [0.11111111111111, -0.22222222222222, 0.11111111111111, 0.11111111111111, -0.22222222222222,
    0.11111111111111, 0.11111111111111, -0.22222222222222, 0.11111111111111],
   [-0.076004476294593, 0.19245008972988, -0.21884616733605, 0.14284169104145, 0, -0.14284169104145,
    0.21884616733605, -0.19245008972988, 0.076004476294593],
   [0.038588483925985, -0.11111111111111, 0.17023209847088, -0.20882058239687, 0.22222222222222,
    -0.20882058239687, 0.17023209847088, -0.11111111111111, 0.038588483925985]]

/-- `chebyshev/vandermonde.hpp:61-94` -/
def Vandermonde11 : Table :=
  [[0.090909090909091, 0.090909090909091, 0.090909090909091, 0.090909090909091, 0.090909090909091,
    0.090909090909091, 0.090909090909091, 0.090909090909091, 0.090909090909091, 0.090909090909091,
    0.090909090909091],
   [-0.17996753488744, -0.16538763551900, -0.13740901351896, -0.098298330446472, -0.051224101243896, 0,
    0.051224101243896, 0.098298330446472, 0.13740901351896, 0.16538763551900, 0.17996753488744],
   [0.17445326792991, 0.11906558799005, 0.025875425140597, -0.075530002363979, -0.15295518778749,
    -0.18181818181818, -0.15295518778749, -0.075530002363979, 0.025875425140597, 0.11906558799005,
    0.17445326792991],
   [-0.16538763551900, -0.051224101243896, 0.098298330446472, 0.17996753488744, 0.13740901351896, 0,
    -0.13740901351896, -0.17996753488744, -0.098298330446472, 0.051224101243896, 0.16538763551900],
   [0.15295518778749, -0.025875425140597, -0.17445326792991, -0.11906558799005, 0.075530002363979,
    0.18181818181818, 0.075530002363979, -0.11906558799005, -0.17445326792991, -0.025875425140597,
    0.15295518778749],
   [-0.13740901351896, 0.098298330446472, 0.16538763551900, -0.051224101243896, -0.17996753488744, 0,
    0.17996753488744, 0.051224101243896, -0.16538763551900, -0.098298330446472, 0.13740901351896],
   [0.11906558799005, -0.15295518778749, -0.075530002363979, 0.17445326792991, 0.025875425140597,
    -0.18181818181818, 0.025875425140597, 0.17445326792991, -0.075530002363979, -0.15295518778749,
    0.11906558799005],
   [-0.098298330446472, 0.17996753488744, -0.051224101243896, -0.13740901351896, 0.16538763551900, 0,
    -0.16538763551900, 0.13740901351896, 0.051224101243896, -0.17996753488744, 0.098298330446472],
   [0.075530002363979, -0.17445326792991, 0.15295518778749, -0.025875425140597, -0.11906558799005,
    0.18181818181818, -0.11906558799005, -0.025875425140597, 0.15295518778749, -0.17445326792991,
    0.075530002363979],
   [-0.051224101243896, 0.13740901351896, -0.17996753488744, 0.16538763551900, -0.098298330446472, 0,
    0.098298330446472, -0.16538763551900, 0.17996753488744, -0.13740901351896, 0.051224101243896],
   [0.025875425140597, -0.075530002363979, 0.11906558799005, -0.15295518778749, 0.17445326792991,
    -0.18181818181818, 0.17445326792991, -0.15295518778749, 0.11906558799005, -0.075530002363979,
    0.025875425140597]]

/-- `chebyshev/vandermonde.hpp:95-147` -/
def Vandermonde13 : Table :=
  [[0.076923076923077, 0.076923076923077, 0.076923076923077, 0.076923076923077, 0.076923076923077,
    0.076923076923077, 0.076923076923077, 0.076923076923077, 0.076923076923077, 0.076923076923077,
    0.076923076923077, 0.076923076923077, 0.076923076923077],
   [-0.15272444216893, -0.14384865272083, -0.12661290244518, -0.10201887049858, -0.071495872622118,
    -0.036817794505778, 0, 0.036817794505778, 0.071495872622118, 0.10201887049858, 0.12661290244518,
    0.14384865272083, 0.15272444216893],
   [0.14937566421939, 0.11515549971863, 0.054554598006544, -0.018544104654665, -0.087394576420178,
    -0.13622400394665, -0.15384615384615, -0.13622400394665, -0.087394576420178, -0.018544104654665,
    0.054554598006544, 0.11515549971863, 0.14937566421939],
   [-0.14384865272083, -0.071495872622118, 0.036817794505778, 0.12661290244518, 0.15272444216893,
    0.10201887049858, 0, -0.10201887049858, -0.15272444216893, -0.12661290244518, -0.036817794505778,
    0.071495872622118, 0.14384865272083],
   [0.13622400394665, 0.018544104654665, -0.11515549971863, -0.14937566421939, -0.054554598006544,
    0.087394576420178, 0.15384615384615, 0.087394576420178, -0.054554598006544, -0.14937566421939,
    -0.11515549971863, 0.018544104654665, 0.13622400394665],
   [-0.12661290244518, 0.036817794505778, 0.15272444216893, 0.071495872622118, -0.10201887049858,
    -0.14384865272083, 0, 0.14384865272083, 0.10201887049858, -0.071495872622118, -0.15272444216893,
    -0.036817794505778, 0.12661290244518],
   [0.11515549971863, -0.087394576420178, -0.13622400394665, 0.054554598006544, 0.14937566421939,
    -0.018544104654665, -0.15384615384615, -0.018544104654665, 0.14937566421939, 0.054554598006544,
    -0.13622400394665, -0.087394576420178, 0.11515549971863],
   [-0.10201887049858, 0.12661290244518, 0.071495872622118, -0.14384865272083, -0.036817794505778,
    0.15272444216893, 0, -0.15272444216893, 0.036817794505778, 0.14384865272083, -0.071495872622118,
    -0.12661290244518, 0.10201887049858],
   [0.087394576420178, -0.14937566421939, 0.018544104654665, 0.13622400394665, -0.11515549971863,
    -0.054554598006544, 0.15384615384615, -0.054554598006544, -0.11515549971863, 0.13622400394665,
    0.018544104654665, -0.14937566421939, 0.087394576420178],
   [-0.071495872622118, 0.15272444216893, -0.10201887049858, -0.036817794505778, 0.14384865272083,
    -0.12661290244518, 0, 0.12661290244518, -0.14384865272083, 0.036817794505778, 0.10201887049858,
    -0.15272444216893, 0.071495872622118],
   [0.054554598006544, -0.13622400394665, 0.14937566421939, -0.087394576420178, -0.018544104654665,
    0.11515549971863, -0.15384615384615, 0.11515549971863, -0.018544104654665, -0.087394576420178,
    0.14937566421939, -0.13622400394665, 0.054554598006544],
   [-0.036817794505778, 0.10201887049858, -0.14384865272083, 0.15272444216893, -0.12661290244518,
    0.071495872622118, 0, -0.071495872622118, 0.12661290244518, -0.15272444216893, 0.14384865272083,
    -0.10201887049858, 0.036817794505778],
   [0.018544104654665, -0.054554598006544, 0.087394576420178, -0.11515549971863, 0.13622400394665,
    -0.14937566421939, 0.15384615384615, -0.14937566421939, 0.13622400394665, -0.11515549971863,
    0.087394576420178, -0.054554598006544, 0.018544104654665]]

/-- `chebyshev/vandermonde.hpp:148-358` -/
def Vandermonde15 : Table :=
  [[0.0666666666666666666666666666666666666666666666666666666667,
    0.0666666666666666666666666666666666666666666666666666666667,
    0.0666666666666666666666666666666666666666666666666666666667,
    0.0666666666666666666666666666666666666666666666666666666667,
    0.0666666666666666666666666666666666666666666666666666666667,
    0.0666666666666666666666666666666666666666666666666666666667,
    0.0666666666666666666666666666666666666666666666666666666667,
    0.0666666666666666666666666666666666666666666666666666666667,
    0.0666666666666666666666666666666666666666666666666666666667,
    0.0666666666666666666666666666666666666666666666666666666667,
    0.0666666666666666666666666666666666666666666666666666666667,
    0.0666666666666666666666666666666666666666666666666666666667,
    0.0666666666666666666666666666666666666666666666666666666667,
    0.0666666666666666666666666666666666666666666666666666666667,
    0.0666666666666666666666666666666666666666666666666666666667],
   [-0.132602919382436444923025592664076050869438945161242590316,
    -0.126807535506020476282191911117250952454093151216766696326,
    -0.115470053837925152901829756100391491129520350254025375204,
    -0.099085976730319231335292939863234263625215183133070184805,
    -0.0783713669723297505558274606185430358130203250190861321430,
    -0.0542315524101066943671981320455330150564186201421564581726,
    -0.0277215587757012449468989712540166888288779680836965115210, 0,
    0.0277215587757012449468989712540166888288779680836965115210,
    0.0542315524101066943671981320455330150564186201421564581726,
    0.0783713669723297505558274606185430358130203250190861321430,
    0.099085976730319231335292939863234263625215183133070184805,
    0.115470053837925152901829756100391491129520350254025375204,
    0.126807535506020476282191911117250952454093151216766696326,
    0.132602919382436444923025592664076050869438945161242590316],
   [0.130419680097840751723808899715946604327965041181690281051,
    0.107868932583326323213639122291042541181353945320384190809,
    0.0666666666666666666666666666666666666666666666666666666667,
    0.0139371284356871295199778873069997492107541159299457485324,
    -0.0412022659166596565469724556243758745146872786537175241424,
    -0.089217414181181095176836444091570729813277762527972756909,
    -0.121806061019013452733617009598042290392108061250329939341,
    -0.133333333333333333333333333333333333333333333333333333333,
    -0.121806061019013452733617009598042290392108061250329939341,
    -0.089217414181181095176836444091570729813277762527972756909,
    -0.0412022659166596565469724556243758745146872786537175241424,
    0.0139371284356871295199778873069997492107541159299457485324,
    0.0666666666666666666666666666666666666666666666666666666667,
    0.107868932583326323213639122291042541181353945320384190809,
    0.130419680097840751723808899715946604327965041181690281051],
   [-0.126807535506020476282191911117250952454093151216766696326,
    -0.0783713669723297505558274606185430358130203250190861321430, 0,
    0.0783713669723297505558274606185430358130203250190861321430,
    0.126807535506020476282191911117250952454093151216766696326,
    0.126807535506020476282191911117250952454093151216766696326,
    0.0783713669723297505558274606185430358130203250190861321430, 0,
    -0.0783713669723297505558274606185430358130203250190861321430,
    -0.126807535506020476282191911117250952454093151216766696326,
    -0.126807535506020476282191911117250952454093151216766696326,
    -0.0783713669723297505558274606185430358130203250190861321430, 0,
    0.0783713669723297505558274606185430358130203250190861321430,
    0.126807535506020476282191911117250952454093151216766696326],
   [0.121806061019013452733617009598042290392108061250329939341,
    0.0412022659166596565469724556243758745146872786537175241424,
    -0.0666666666666666666666666666666666666666666666666666666667,
    -0.130419680097840751723808899715946604327965041181690281051,
    -0.107868932583326323213639122291042541181353945320384190809,
    -0.0139371284356871295199778873069997492107541159299457485324,
    0.089217414181181095176836444091570729813277762527972756909,
    0.133333333333333333333333333333333333333333333333333333333,
    0.089217414181181095176836444091570729813277762527972756909,
    -0.0139371284356871295199778873069997492107541159299457485324,
    -0.107868932583326323213639122291042541181353945320384190809,
    -0.130419680097840751723808899715946604327965041181690281051,
    -0.0666666666666666666666666666666666666666666666666666666667,
    0.0412022659166596565469724556243758745146872786537175241424,
    0.121806061019013452733617009598042290392108061250329939341],
   [-0.115470053837925152901829756100391491129520350254025375204, 0,
    0.115470053837925152901829756100391491129520350254025375204,
    0.115470053837925152901829756100391491129520350254025375204, 0,
    -0.115470053837925152901829756100391491129520350254025375204,
    -0.115470053837925152901829756100391491129520350254025375204, 0,
    0.115470053837925152901829756100391491129520350254025375204,
    0.115470053837925152901829756100391491129520350254025375204, 0,
    -0.115470053837925152901829756100391491129520350254025375204,
    -0.115470053837925152901829756100391491129520350254025375204, 0,
    0.115470053837925152901829756100391491129520350254025375204],
   [0.107868932583326323213639122291042541181353945320384190809,
    -0.0412022659166596565469724556243758745146872786537175241424,
    -0.133333333333333333333333333333333333333333333333333333333,
    -0.0412022659166596565469724556243758745146872786537175241424,
    0.107868932583326323213639122291042541181353945320384190809,
    0.107868932583326323213639122291042541181353945320384190809,
    -0.0412022659166596565469724556243758745146872786537175241424,
    -0.133333333333333333333333333333333333333333333333333333333,
    -0.0412022659166596565469724556243758745146872786537175241424,
    0.107868932583326323213639122291042541181353945320384190809,
    0.107868932583326323213639122291042541181353945320384190809,
    -0.0412022659166596565469724556243758745146872786537175241424,
    -0.133333333333333333333333333333333333333333333333333333333,
    -0.0412022659166596565469724556243758745146872786537175241424,
    0.107868932583326323213639122291042541181353945320384190809],
   [-0.099085976730319231335292939863234263625215183133070184805,
    0.0783713669723297505558274606185430358130203250190861321430,
    0.115470053837925152901829756100391491129520350254025375204,
    -0.0542315524101066943671981320455330150564186201421564581726,
    -0.126807535506020476282191911117250952454093151216766696326,
    0.0277215587757012449468989712540166888288779680836965115210,
    0.132602919382436444923025592664076050869438945161242590316, 0,
    -0.132602919382436444923025592664076050869438945161242590316,
    -0.0277215587757012449468989712540166888288779680836965115210,
    0.126807535506020476282191911117250952454093151216766696326,
    0.0542315524101066943671981320455330150564186201421564581726,
    -0.115470053837925152901829756100391491129520350254025375204,
    -0.0783713669723297505558274606185430358130203250190861321430,
    0.099085976730319231335292939863234263625215183133070184805],
   [0.089217414181181095176836444091570729813277762527972756909,
    -0.107868932583326323213639122291042541181353945320384190809,
    -0.0666666666666666666666666666666666666666666666666666666667,
    0.121806061019013452733617009598042290392108061250329939341,
    0.0412022659166596565469724556243758745146872786537175241424,
    -0.130419680097840751723808899715946604327965041181690281051,
    -0.0139371284356871295199778873069997492107541159299457485324,
    0.133333333333333333333333333333333333333333333333333333333,
    -0.0139371284356871295199778873069997492107541159299457485324,
    -0.130419680097840751723808899715946604327965041181690281051,
    0.0412022659166596565469724556243758745146872786537175241424,
    0.121806061019013452733617009598042290392108061250329939341,
    -0.0666666666666666666666666666666666666666666666666666666667,
    -0.107868932583326323213639122291042541181353945320384190809,
    0.089217414181181095176836444091570729813277762527972756909],
   [-0.0783713669723297505558274606185430358130203250190861321430,
    0.126807535506020476282191911117250952454093151216766696326, 0,
    -0.126807535506020476282191911117250952454093151216766696326,
    0.0783713669723297505558274606185430358130203250190861321430,
    0.0783713669723297505558274606185430358130203250190861321430,
    -0.126807535506020476282191911117250952454093151216766696326, 0,
    0.126807535506020476282191911117250952454093151216766696326,
    -0.0783713669723297505558274606185430358130203250190861321430,
    -0.0783713669723297505558274606185430358130203250190861321430,
    0.126807535506020476282191911117250952454093151216766696326, 0,
    -0.126807535506020476282191911117250952454093151216766696326,
    0.0783713669723297505558274606185430358130203250190861321430],
   [0.0666666666666666666666666666666666666666666666666666666667,
    -0.133333333333333333333333333333333333333333333333333333333,
    0.0666666666666666666666666666666666666666666666666666666667,
    0.0666666666666666666666666666666666666666666666666666666667,
    -0.133333333333333333333333333333333333333333333333333333333,
    0.0666666666666666666666666666666666666666666666666666666667,
    0.0666666666666666666666666666666666666666666666666666666667,
    -0.133333333333333333333333333333333333333333333333333333333,
    0.0666666666666666666666666666666666666666666666666666666667,
    0.0666666666666666666666666666666666666666666666666666666667,
    -0.133333333333333333333333333333333333333333333333333333333,
    0.0666666666666666666666666666666666666666666666666666666667,
    0.0666666666666666666666666666666666666666666666666666666667,
    -0.133333333333333333333333333333333333333333333333333333333,
    0.0666666666666666666666666666666666666666666666666666666667],
   [-0.0542315524101066943671981320455330150564186201421564581726,
    0.126807535506020476282191911117250952454093151216766696326,
    -0.115470053837925152901829756100391491129520350254025375204,
    0.0277215587757012449468989712540166888288779680836965115210,
    0.0783713669723297505558274606185430358130203250190861321430,
    -0.132602919382436444923025592664076050869438945161242590316,
    0.099085976730319231335292939863234263625215183133070184805, 0,
    -0.099085976730319231335292939863234263625215183133070184805,
    0.132602919382436444923025592664076050869438945161242590316,
    -0.0783713669723297505558274606185430358130203250190861321430,
    -0.0277215587757012449468989712540166888288779680836965115210,
    0.115470053837925152901829756100391491129520350254025375204,
    -0.126807535506020476282191911117250952454093151216766696326,
    0.0542315524101066943671981320455330150564186201421564581726],
   [0.0412022659166596565469724556243758745146872786537175241424,
    -0.107868932583326323213639122291042541181353945320384190809,
    0.133333333333333333333333333333333333333333333333333333333,
    -0.107868932583326323213639122291042541181353945320384190809,
    0.0412022659166596565469724556243758745146872786537175241424,
    0.0412022659166596565469724556243758745146872786537175241424,
    -0.107868932583326323213639122291042541181353945320384190809,
    0.133333333333333333333333333333333333333333333333333333333,
    -0.107868932583326323213639122291042541181353945320384190809,
    0.0412022659166596565469724556243758745146872786537175241424,
    0.0412022659166596565469724556243758745146872786537175241424,
    -0.107868932583326323213639122291042541181353945320384190809,
    0.133333333333333333333333333333333333333333333333333333333,
    -0.107868932583326323213639122291042541181353945320384190809,
    0.0412022659166596565469724556243758745146872786537175241424],
   [-0.0277215587757012449468989712540166888288779680836965115210,
    0.0783713669723297505558274606185430358130203250190861321430,
    -0.115470053837925152901829756100391491129520350254025375204,
    0.132602919382436444923025592664076050869438945161242590316,
    -0.126807535506020476282191911117250952454093151216766696326,
    0.099085976730319231335292939863234263625215183133070184805,
    -0.0542315524101066943671981320455330150564186201421564581726, 0,
    0.0542315524101066943671981320455330150564186201421564581726,
    -0.099085976730319231335292939863234263625215183133070184805,
    0.126807535506020476282191911117250952454093151216766696326,
    -0.132602919382436444923025592664076050869438945161242590316,
    0.115470053837925152901829756100391491129520350254025375204,
    -0.0783713669723297505558274606185430358130203250190861321430,
    0.0277215587757012449468989712540166888288779680836965115210],
   [0.0139371284356871295199778873069997492107541159299457485324,
    -0.0412022659166596565469724556243758745146872786537175241424,
    0.0666666666666666666666666666666666666666666666666666666667,
    -0.089217414181181095176836444091570729813277762527972756909,
    0.107868932583326323213639122291042541181353945320384190809,
    -0.121806061019013452733617009598042290392108061250329939341,
    0.130419680097840751723808899715946604327965041181690281051,
    -0.133333333333333333333333333333333333333333333333333333333,
    0.130419680097840751723808899715946604327965041181690281051,
    -0.121806061019013452733617009598042290392108061250329939341,
    0.107868932583326323213639122291042541181353945320384190809,
    -0.089217414181181095176836444091570729813277762527972756909,
    0.0666666666666666666666666666666666666666666666666666666667,
    -0.0412022659166596565469724556243758745146872786537175241424,
    0.0139371284356871295199778873069997492107541159299457485324]]

/-- `chebyshev/vandermonde.hpp:359-800` -/
def Vandermonde21 : Table :=
  [[0.0476190476190476190476190476190476190476190476190476190,
    0.0476190476190476190476190476190476190476190476190476190,
    0.0476190476190476190476190476190476190476190476190476190,
    0.0476190476190476190476190476190476190476190476190476190,
    0.0476190476190476190476190476190476190476190476190476190,
    0.0476190476190476190476190476190476190476190476190476190,
    0.0476190476190476190476190476190476190476190476190476190,
    0.0476190476190476190476190476190476190476190476190476190,
    0.0476190476190476190476190476190476190476190476190476190,
    0.0476190476190476190476190476190476190476190476190476190,
    0.0476190476190476190476190476190476190476190476190476190,
    0.0476190476190476190476190476190476190476190476190476190,
    0.0476190476190476190476190476190476190476190476190476190,
    0.0476190476190476190476190476190476190476190476190476190,
    0.0476190476190476190476190476190476190476190476190476190,
    0.0476190476190476190476190476190476190476190476190476190,
    0.0476190476190476190476190476190476190476190476190476190,
    0.0476190476190476190476190476190476190476190476190476190,
    0.0476190476190476190476190476190476190476190476190476190,
    0.0476190476190476190476190476190476190476190476190476190,
    0.0476190476190476190476190476190476190476190476190476190],
   [-0.0949717902077314426880980829407732633957961624154636957,
    -0.0928502773506498673350601602851363064031224572019045179,
    -0.0886546427280194529178856420905976482992384721625628595,
    -0.0824786098842322520727355400717082079496573930385895537,
    -0.0744601411874314103531851930165769285935556684484464313,
    -0.0647783559781827990654627334317847851454349114901448828,
    -0.0536495293393925740713582417171200486710351407214198980,
    -0.0413222608683388686167398412236532147247610216940437978,
    -0.0280719213724670682695974268533515212576875457117596351,
    -0.01419450154058804256470044907402071970568280371411642817, 0,
    0.01419450154058804256470044907402071970568280371411642817,
    0.0280719213724670682695974268533515212576875457117596351,
    0.0413222608683388686167398412236532147247610216940437978,
    0.0536495293393925740713582417171200486710351407214198980,
    0.0647783559781827990654627334317847851454349114901448828,
    0.0744601411874314103531851930165769285935556684484464313,
    0.0824786098842322520727355400717082079496573930385895537,
    0.0886546427280194529178856420905976482992384721625628595,
    0.0928502773506498673350601602851363064031224572019045179,
    0.0949717902077314426880980829407732633957961624154636957],
   [0.0941743644023931947685469412318103441014524774832559720,
    0.0858065588478494405939145066197566715396113487744625857,
    0.0698144639837929836688029989781592292355460511983186167,
    0.0476190476190476190476190476190476190476190476190476190,
    0.02119246990060137183703833947588521518727195892995666241,
    -0.00711715177013564326580378530807301460700464334926828038,
    -0.0347943832729900013852131427552160764221882173978843430,
    -0.0593799811294031933833337984765942676792642600853716291,
    -0.0786894070777137973281107213116836569326067054251943053,
    -0.0910069338843943555058413384540444444228180101282752791,
    -0.0952380952380952380952380952380952380952380952380952381,
    -0.0910069338843943555058413384540444444228180101282752791,
    -0.0786894070777137973281107213116836569326067054251943053,
    -0.0593799811294031933833337984765942676792642600853716291,
    -0.0347943832729900013852131427552160764221882173978843430,
    -0.00711715177013564326580378530807301460700464334926828038,
    0.02119246990060137183703833947588521518727195892995666241,
    0.0476190476190476190476190476190476190476190476190476190,
    0.0698144639837929836688029989781592292355460511983186167,
    0.0858065588478494405939145066197566715396113487744625857,
    0.0941743644023931947685469412318103441014524774832559720],
   [-0.0928502773506498673350601602851363064031224572019045179,
    -0.0744601411874314103531851930165769285935556684484464313,
    -0.0413222608683388686167398412236532147247610216940437978, 0,
    0.0413222608683388686167398412236532147247610216940437978,
    0.0744601411874314103531851930165769285935556684484464313,
    0.0928502773506498673350601602851363064031224572019045179,
    0.0928502773506498673350601602851363064031224572019045179,
    0.0744601411874314103531851930165769285935556684484464313,
    0.0413222608683388686167398412236532147247610216940437978, 0,
    -0.0413222608683388686167398412236532147247610216940437978,
    -0.0744601411874314103531851930165769285935556684484464313,
    -0.0928502773506498673350601602851363064031224572019045179,
    -0.0928502773506498673350601602851363064031224572019045179,
    -0.0744601411874314103531851930165769285935556684484464313,
    -0.0413222608683388686167398412236532147247610216940437978, 0,
    0.0413222608683388686167398412236532147247610216940437978,
    0.0744601411874314103531851930165769285935556684484464313,
    0.0928502773506498673350601602851363064031224572019045179],
   [0.0910069338843943555058413384540444444228180101282752791,
    0.0593799811294031933833337984765942676792642600853716291,
    0.00711715177013564326580378530807301460700464334926828038,
    -0.0476190476190476190476190476190476190476190476190476190,
    -0.0858065588478494405939145066197566715396113487744625857,
    -0.0941743644023931947685469412318103441014524774832559720,
    -0.0698144639837929836688029989781592292355460511983186167,
    -0.02119246990060137183703833947588521518727195892995666241,
    0.0347943832729900013852131427552160764221882173978843430,
    0.0786894070777137973281107213116836569326067054251943053,
    0.0952380952380952380952380952380952380952380952380952381,
    0.0786894070777137973281107213116836569326067054251943053,
    0.0347943832729900013852131427552160764221882173978843430,
    -0.02119246990060137183703833947588521518727195892995666241,
    -0.0698144639837929836688029989781592292355460511983186167,
    -0.0941743644023931947685469412318103441014524774832559720,
    -0.0858065588478494405939145066197566715396113487744625857,
    -0.0476190476190476190476190476190476190476190476190476190,
    0.00711715177013564326580378530807301460700464334926828038,
    0.0593799811294031933833337984765942676792642600853716291,
    0.0910069338843943555058413384540444444228180101282752791],
   [-0.0886546427280194529178856420905976482992384721625628595,
    -0.0413222608683388686167398412236532147247610216940437978,
    0.0280719213724670682695974268533515212576875457117596351,
    0.0824786098842322520727355400717082079496573930385895537,
    0.0928502773506498673350601602851363064031224572019045179,
    0.0536495293393925740713582417171200486710351407214198980,
    -0.01419450154058804256470044907402071970568280371411642817,
    -0.0744601411874314103531851930165769285935556684484464313,
    -0.0949717902077314426880980829407732633957961624154636957,
    -0.0647783559781827990654627334317847851454349114901448828, 0,
    0.0647783559781827990654627334317847851454349114901448828,
    0.0949717902077314426880980829407732633957961624154636957,
    0.0744601411874314103531851930165769285935556684484464313,
    0.01419450154058804256470044907402071970568280371411642817,
    -0.0536495293393925740713582417171200486710351407214198980,
    -0.0928502773506498673350601602851363064031224572019045179,
    -0.0824786098842322520727355400717082079496573930385895537,
    -0.0280719213724670682695974268533515212576875457117596351,
    0.0413222608683388686167398412236532147247610216940437978,
    0.0886546427280194529178856420905976482992384721625628595],
   [0.0858065588478494405939145066197566715396113487744625857,
    0.02119246990060137183703833947588521518727195892995666241,
    -0.0593799811294031933833337984765942676792642600853716291,
    -0.0952380952380952380952380952380952380952380952380952381,
    -0.0593799811294031933833337984765942676792642600853716291,
    0.02119246990060137183703833947588521518727195892995666241,
    0.0858065588478494405939145066197566715396113487744625857,
    0.0858065588478494405939145066197566715396113487744625857,
    0.02119246990060137183703833947588521518727195892995666241,
    -0.0593799811294031933833337984765942676792642600853716291,
    -0.0952380952380952380952380952380952380952380952380952381,
    -0.0593799811294031933833337984765942676792642600853716291,
    0.02119246990060137183703833947588521518727195892995666241,
    0.0858065588478494405939145066197566715396113487744625857,
    0.0858065588478494405939145066197566715396113487744625857,
    0.02119246990060137183703833947588521518727195892995666241,
    -0.0593799811294031933833337984765942676792642600853716291,
    -0.0952380952380952380952380952380952380952380952380952381,
    -0.0593799811294031933833337984765942676792642600853716291,
    0.02119246990060137183703833947588521518727195892995666241,
    0.0858065588478494405939145066197566715396113487744625857],
   [-0.0824786098842322520727355400717082079496573930385895537, 0,
    0.0824786098842322520727355400717082079496573930385895537,
    0.0824786098842322520727355400717082079496573930385895537, 0,
    -0.0824786098842322520727355400717082079496573930385895537,
    -0.0824786098842322520727355400717082079496573930385895537, 0,
    0.0824786098842322520727355400717082079496573930385895537,
    0.0824786098842322520727355400717082079496573930385895537, 0,
    -0.0824786098842322520727355400717082079496573930385895537,
    -0.0824786098842322520727355400717082079496573930385895537, 0,
    0.0824786098842322520727355400717082079496573930385895537,
    0.0824786098842322520727355400717082079496573930385895537, 0,
    -0.0824786098842322520727355400717082079496573930385895537,
    -0.0824786098842322520727355400717082079496573930385895537, 0,
    0.0824786098842322520727355400717082079496573930385895537],
   [0.0786894070777137973281107213116836569326067054251943053,
    -0.02119246990060137183703833947588521518727195892995666241,
    -0.0941743644023931947685469412318103441014524774832559720,
    -0.0476190476190476190476190476190476190476190476190476190,
    0.0593799811294031933833337984765942676792642600853716291,
    0.0910069338843943555058413384540444444228180101282752791,
    0.00711715177013564326580378530807301460700464334926828038,
    -0.0858065588478494405939145066197566715396113487744625857,
    -0.0698144639837929836688029989781592292355460511983186167,
    0.0347943832729900013852131427552160764221882173978843430,
    0.0952380952380952380952380952380952380952380952380952381,
    0.0347943832729900013852131427552160764221882173978843430,
    -0.0698144639837929836688029989781592292355460511983186167,
    -0.0858065588478494405939145066197566715396113487744625857,
    0.00711715177013564326580378530807301460700464334926828038,
    0.0910069338843943555058413384540444444228180101282752791,
    0.0593799811294031933833337984765942676792642600853716291,
    -0.0476190476190476190476190476190476190476190476190476190,
    -0.0941743644023931947685469412318103441014524774832559720,
    -0.02119246990060137183703833947588521518727195892995666241,
    0.0786894070777137973281107213116836569326067054251943053],
   [-0.0744601411874314103531851930165769285935556684484464313,
    0.0413222608683388686167398412236532147247610216940437978,
    0.0928502773506498673350601602851363064031224572019045179, 0,
    -0.0928502773506498673350601602851363064031224572019045179,
    -0.0413222608683388686167398412236532147247610216940437978,
    0.0744601411874314103531851930165769285935556684484464313,
    0.0744601411874314103531851930165769285935556684484464313,
    -0.0413222608683388686167398412236532147247610216940437978,
    -0.0928502773506498673350601602851363064031224572019045179, 0,
    0.0928502773506498673350601602851363064031224572019045179,
    0.0413222608683388686167398412236532147247610216940437978,
    -0.0744601411874314103531851930165769285935556684484464313,
    -0.0744601411874314103531851930165769285935556684484464313,
    0.0413222608683388686167398412236532147247610216940437978,
    0.0928502773506498673350601602851363064031224572019045179, 0,
    -0.0928502773506498673350601602851363064031224572019045179,
    -0.0413222608683388686167398412236532147247610216940437978,
    0.0744601411874314103531851930165769285935556684484464313],
   [0.0698144639837929836688029989781592292355460511983186167,
    -0.0593799811294031933833337984765942676792642600853716291,
    -0.0786894070777137973281107213116836569326067054251943053,
    0.0476190476190476190476190476190476190476190476190476190,
    0.0858065588478494405939145066197566715396113487744625857,
    -0.0347943832729900013852131427552160764221882173978843430,
    -0.0910069338843943555058413384540444444228180101282752791,
    0.02119246990060137183703833947588521518727195892995666241,
    0.0941743644023931947685469412318103441014524774832559720,
    -0.00711715177013564326580378530807301460700464334926828038,
    -0.0952380952380952380952380952380952380952380952380952381,
    -0.00711715177013564326580378530807301460700464334926828038,
    0.0941743644023931947685469412318103441014524774832559720,
    0.02119246990060137183703833947588521518727195892995666241,
    -0.0910069338843943555058413384540444444228180101282752791,
    -0.0347943832729900013852131427552160764221882173978843430,
    0.0858065588478494405939145066197566715396113487744625857,
    0.0476190476190476190476190476190476190476190476190476190,
    -0.0786894070777137973281107213116836569326067054251943053,
    -0.0593799811294031933833337984765942676792642600853716291,
    0.0698144639837929836688029989781592292355460511983186167],
   [-0.0647783559781827990654627334317847851454349114901448828,
    0.0744601411874314103531851930165769285935556684484464313,
    0.0536495293393925740713582417171200486710351407214198980,
    -0.0824786098842322520727355400717082079496573930385895537,
    -0.0413222608683388686167398412236532147247610216940437978,
    0.0886546427280194529178856420905976482992384721625628595,
    0.0280719213724670682695974268533515212576875457117596351,
    -0.0928502773506498673350601602851363064031224572019045179,
    -0.01419450154058804256470044907402071970568280371411642817,
    0.0949717902077314426880980829407732633957961624154636957, 0,
    -0.0949717902077314426880980829407732633957961624154636957,
    0.01419450154058804256470044907402071970568280371411642817,
    0.0928502773506498673350601602851363064031224572019045179,
    -0.0280719213724670682695974268533515212576875457117596351,
    -0.0886546427280194529178856420905976482992384721625628595,
    0.0413222608683388686167398412236532147247610216940437978,
    0.0824786098842322520727355400717082079496573930385895537,
    -0.0536495293393925740713582417171200486710351407214198980,
    -0.0744601411874314103531851930165769285935556684484464313,
    0.0647783559781827990654627334317847851454349114901448828],
   [0.0593799811294031933833337984765942676792642600853716291,
    -0.0858065588478494405939145066197566715396113487744625857,
    -0.02119246990060137183703833947588521518727195892995666241,
    0.0952380952380952380952380952380952380952380952380952381,
    -0.02119246990060137183703833947588521518727195892995666241,
    -0.0858065588478494405939145066197566715396113487744625857,
    0.0593799811294031933833337984765942676792642600853716291,
    0.0593799811294031933833337984765942676792642600853716291,
    -0.0858065588478494405939145066197566715396113487744625857,
    -0.02119246990060137183703833947588521518727195892995666241,
    0.0952380952380952380952380952380952380952380952380952381,
    -0.02119246990060137183703833947588521518727195892995666241,
    -0.0858065588478494405939145066197566715396113487744625857,
    0.0593799811294031933833337984765942676792642600853716291,
    0.0593799811294031933833337984765942676792642600853716291,
    -0.0858065588478494405939145066197566715396113487744625857,
    -0.02119246990060137183703833947588521518727195892995666241,
    0.0952380952380952380952380952380952380952380952380952381,
    -0.02119246990060137183703833947588521518727195892995666241,
    -0.0858065588478494405939145066197566715396113487744625857,
    0.0593799811294031933833337984765942676792642600853716291],
   [-0.0536495293393925740713582417171200486710351407214198980,
    0.0928502773506498673350601602851363064031224572019045179,
    -0.01419450154058804256470044907402071970568280371411642817,
    -0.0824786098842322520727355400717082079496573930385895537,
    0.0744601411874314103531851930165769285935556684484464313,
    0.0280719213724670682695974268533515212576875457117596351,
    -0.0949717902077314426880980829407732633957961624154636957,
    0.0413222608683388686167398412236532147247610216940437978,
    0.0647783559781827990654627334317847851454349114901448828,
    -0.0886546427280194529178856420905976482992384721625628595, 0,
    0.0886546427280194529178856420905976482992384721625628595,
    -0.0647783559781827990654627334317847851454349114901448828,
    -0.0413222608683388686167398412236532147247610216940437978,
    0.0949717902077314426880980829407732633957961624154636957,
    -0.0280719213724670682695974268533515212576875457117596351,
    -0.0744601411874314103531851930165769285935556684484464313,
    0.0824786098842322520727355400717082079496573930385895537,
    0.01419450154058804256470044907402071970568280371411642817,
    -0.0928502773506498673350601602851363064031224572019045179,
    0.0536495293393925740713582417171200486710351407214198980],
   [0.0476190476190476190476190476190476190476190476190476190,
    -0.0952380952380952380952380952380952380952380952380952381,
    0.0476190476190476190476190476190476190476190476190476190,
    0.0476190476190476190476190476190476190476190476190476190,
    -0.0952380952380952380952380952380952380952380952380952381,
    0.0476190476190476190476190476190476190476190476190476190,
    0.0476190476190476190476190476190476190476190476190476190,
    -0.0952380952380952380952380952380952380952380952380952381,
    0.0476190476190476190476190476190476190476190476190476190,
    0.0476190476190476190476190476190476190476190476190476190,
    -0.0952380952380952380952380952380952380952380952380952381,
    0.0476190476190476190476190476190476190476190476190476190,
    0.0476190476190476190476190476190476190476190476190476190,
    -0.0952380952380952380952380952380952380952380952380952381,
    0.0476190476190476190476190476190476190476190476190476190,
    0.0476190476190476190476190476190476190476190476190476190,
    -0.0952380952380952380952380952380952380952380952380952381,
    0.0476190476190476190476190476190476190476190476190476190,
    0.0476190476190476190476190476190476190476190476190476190,
    -0.0952380952380952380952380952380952380952380952380952381,
    0.0476190476190476190476190476190476190476190476190476190],
   [-0.0413222608683388686167398412236532147247610216940437978,
    0.0928502773506498673350601602851363064031224572019045179,
    -0.0744601411874314103531851930165769285935556684484464313, 0,
    0.0744601411874314103531851930165769285935556684484464313,
    -0.0928502773506498673350601602851363064031224572019045179,
    0.0413222608683388686167398412236532147247610216940437978,
    0.0413222608683388686167398412236532147247610216940437978,
    -0.0928502773506498673350601602851363064031224572019045179,
    0.0744601411874314103531851930165769285935556684484464313, 0,
    -0.0744601411874314103531851930165769285935556684484464313,
    0.0928502773506498673350601602851363064031224572019045179,
    -0.0413222608683388686167398412236532147247610216940437978,
    -0.0413222608683388686167398412236532147247610216940437978,
    0.0928502773506498673350601602851363064031224572019045179,
    -0.0744601411874314103531851930165769285935556684484464313, 0,
    0.0744601411874314103531851930165769285935556684484464313,
    -0.0928502773506498673350601602851363064031224572019045179,
    0.0413222608683388686167398412236532147247610216940437978],
   [0.0347943832729900013852131427552160764221882173978843430,
    -0.0858065588478494405939145066197566715396113487744625857,
    0.0910069338843943555058413384540444444228180101282752791,
    -0.0476190476190476190476190476190476190476190476190476190,
    -0.02119246990060137183703833947588521518727195892995666241,
    0.0786894070777137973281107213116836569326067054251943053,
    -0.0941743644023931947685469412318103441014524774832559720,
    0.0593799811294031933833337984765942676792642600853716291,
    0.00711715177013564326580378530807301460700464334926828038,
    -0.0698144639837929836688029989781592292355460511983186167,
    0.0952380952380952380952380952380952380952380952380952381,
    -0.0698144639837929836688029989781592292355460511983186167,
    0.00711715177013564326580378530807301460700464334926828038,
    0.0593799811294031933833337984765942676792642600853716291,
    -0.0941743644023931947685469412318103441014524774832559720,
    0.0786894070777137973281107213116836569326067054251943053,
    -0.02119246990060137183703833947588521518727195892995666241,
    -0.0476190476190476190476190476190476190476190476190476190,
    0.0910069338843943555058413384540444444228180101282752791,
    -0.0858065588478494405939145066197566715396113487744625857,
    0.0347943832729900013852131427552160764221882173978843430],
   [-0.0280719213724670682695974268533515212576875457117596351,
    0.0744601411874314103531851930165769285935556684484464313,
    -0.0949717902077314426880980829407732633957961624154636957,
    0.0824786098842322520727355400717082079496573930385895537,
    -0.0413222608683388686167398412236532147247610216940437978,
    -0.01419450154058804256470044907402071970568280371411642817,
    0.0647783559781827990654627334317847851454349114901448828,
    -0.0928502773506498673350601602851363064031224572019045179,
    0.0886546427280194529178856420905976482992384721625628595,
    -0.0536495293393925740713582417171200486710351407214198980, 0,
    0.0536495293393925740713582417171200486710351407214198980,
    -0.0886546427280194529178856420905976482992384721625628595,
    0.0928502773506498673350601602851363064031224572019045179,
    -0.0647783559781827990654627334317847851454349114901448828,
    0.01419450154058804256470044907402071970568280371411642817,
    0.0413222608683388686167398412236532147247610216940437978,
    -0.0824786098842322520727355400717082079496573930385895537,
    0.0949717902077314426880980829407732633957961624154636957,
    -0.0744601411874314103531851930165769285935556684484464313,
    0.0280719213724670682695974268533515212576875457117596351],
   [0.02119246990060137183703833947588521518727195892995666241,
    -0.0593799811294031933833337984765942676792642600853716291,
    0.0858065588478494405939145066197566715396113487744625857,
    -0.0952380952380952380952380952380952380952380952380952381,
    0.0858065588478494405939145066197566715396113487744625857,
    -0.0593799811294031933833337984765942676792642600853716291,
    0.02119246990060137183703833947588521518727195892995666241,
    0.02119246990060137183703833947588521518727195892995666241,
    -0.0593799811294031933833337984765942676792642600853716291,
    0.0858065588478494405939145066197566715396113487744625857,
    -0.0952380952380952380952380952380952380952380952380952381,
    0.0858065588478494405939145066197566715396113487744625857,
    -0.0593799811294031933833337984765942676792642600853716291,
    0.02119246990060137183703833947588521518727195892995666241,
    0.02119246990060137183703833947588521518727195892995666241,
    -0.0593799811294031933833337984765942676792642600853716291,
    0.0858065588478494405939145066197566715396113487744625857,
    -0.0952380952380952380952380952380952380952380952380952381,
    0.0858065588478494405939145066197566715396113487744625857,
    -0.0593799811294031933833337984765942676792642600853716291,
    0.02119246990060137183703833947588521518727195892995666241],
   [-0.01419450154058804256470044907402071970568280371411642817,
    0.0413222608683388686167398412236532147247610216940437978,
    -0.0647783559781827990654627334317847851454349114901448828,
    0.0824786098842322520727355400717082079496573930385895537,
    -0.0928502773506498673350601602851363064031224572019045179,
    0.0949717902077314426880980829407732633957961624154636957,
    -0.0886546427280194529178856420905976482992384721625628595,
    0.0744601411874314103531851930165769285935556684484464313,
    -0.0536495293393925740713582417171200486710351407214198980,
    0.0280719213724670682695974268533515212576875457117596351, 0,
    -0.0280719213724670682695974268533515212576875457117596351,
    0.0536495293393925740713582417171200486710351407214198980,
    -0.0744601411874314103531851930165769285935556684484464313,
    0.0886546427280194529178856420905976482992384721625628595,
    -0.0949717902077314426880980829407732633957961624154636957,
    0.0928502773506498673350601602851363064031224572019045179,
    -0.0824786098842322520727355400717082079496573930385895537,
    0.0647783559781827990654627334317847851454349114901448828,
    -0.0413222608683388686167398412236532147247610216940437978,
    0.01419450154058804256470044907402071970568280371411642817],
   [0.00711715177013564326580378530807301460700464334926828038,
    -0.02119246990060137183703833947588521518727195892995666241,
    0.0347943832729900013852131427552160764221882173978843430,
    -0.0476190476190476190476190476190476190476190476190476190,
    0.0593799811294031933833337984765942676792642600853716291,
    -0.0698144639837929836688029989781592292355460511983186167,
    0.0786894070777137973281107213116836569326067054251943053,
    -0.0858065588478494405939145066197566715396113487744625857,
    0.0910069338843943555058413384540444444228180101282752791,
    -0.0941743644023931947685469412318103441014524774832559720,
    0.0952380952380952380952380952380952380952380952380952381,
    -0.0941743644023931947685469412318103441014524774832559720,
    0.0910069338843943555058413384540444444228180101282752791,
    -0.0858065588478494405939145066197566715396113487744625857,
    0.0786894070777137973281107213116836569326067054251943053,
    -0.0698144639837929836688029989781592292355460511983186167,
    0.0593799811294031933833337984765942676792642600853716291,
    -0.0476190476190476190476190476190476190476190476190476190,
    0.0347943832729900013852131427552160764221882173978843430,
    -0.02119246990060137183703833947588521518727195892995666241,
    0.00711715177013564326580378530807301460700464334926828038]]

/-- `chebyshev/vandermonde.hpp:802-835` -/
def get_vmbox {R : Type} [Arith R] (r : Indexer) : Heap R → Heap R :=
  forLoop 9 fun i => forLoop 9 fun j m => Function.update m (r (j + i * 9)) (Vandermonde9.at i j)

end Opac.Chebyshev
