[
{
"id": "F01",
"file": "Verif/Py/Arith.lean",
"within": "roundMag",
"old": "N.log2 - 52",
"new": "N.log2 - 51",
"definition": "F64.roundMag",
"claim": "C62: results are the nearest doubles (keeps 52 bits only)",
"expect": [
"C62"
],
"count": 1
},
{
"id": "F02",
"file": "Verif/Py/Arith.lean",
"within": "add",
"old": "x.sign = 1 ∧ y.sign = 1",
"new": "x.sign = 1 ∨ y.sign = 1",
"definition": "F64.add",
"claim": "C62: 0 + -0 is 0 (sign of an exact zero sum)",
"expect": [
"C62"
],
"count": 1
},
{
"id": "F03",
"file": "Verif/Py/Arith.lean",
"within": "add",
"old": "if x.sign = y.sign then x else nan",
"new": "x",
"definition": "F64.add",
"claim": "C62: inf + -inf is NaN",
"expect": [
"C62"
],
"count": 1
},
{
"id": "F04",
"file": "Verif/Py/Arith.lean",
"within": "mul",
"old": "(x.sign + y.sign) % 2",
"new": "x.sign",
"definition": "F64.mul",
"claim": "C62: sign of products",
"expect": [
"C62"
],
"count": 1
},
{
"id": "F05",
"file": "Verif/Py/Arith.lean",
"within": "mul",
"old": "then nan else inf s",
"new": "then mk s 0 0 else inf s",
"definition": "F64.mul",
"claim": "C62: 0 * inf is NaN",
"expect": [
"C62"
],
"count": 1
},
{
"id": "F06",
"file": "Verif/Py/Arith.lean",
"within": "neg",
"old": "mk (1 - x.sign)",
"new": "mk 1",
"definition": "F64.neg",
"claim": "C62: negation of a negative number",
"expect": [
"C62"
],
"count": 1
},
{
"id": "F07",
"file": "Verif/Py/Arith.lean",
"within": "div",
"old": "if r = 0 then 0 else 1",
"new": "0",
"definition": "F64.div",
"claim": "C62: division rounds to nearest (no sticky bit)",
"expect": [
"C62"
],
"count": 1
},
{
"id": "F08",
"file": "Verif/Py/Arith.lean",
"within": "div",
"old": "if x.mag = 0 then nan else inf s",
"new": "inf s",
"definition": "F64.div",
"claim": "C62: 0/0 is NaN",
"expect": [
"C62"
],
"count": 1
},
{
"id": "F09",
"file": "Verif/Py/Arith.lean",
"within": "absLt",
"old": "x.frac < c.expo",
"new": "x.frac ≤ c.expo",
"definition": "F64.absLt",
"claim": "C62: strict comparison with the gimbal limit",
"expect": [
"C62"
],
"count": 1
},
{
"id": "F10",
"file": "Verif/Py/Arith.lean",
"old": "some (ofMag (if n < 0 then 1 else 0) m)",
"new": "some (ofMag 0 m)",
"definition": "F64.ofInt",
"claim": "C68: sign of integers stored as floats",
"expect": [
"C68"
],
"count": 1
},
{
"id": "F11",
"file": "Verif/Py/Arith.lean",
"within": "ofMag",
"old": "m < 2047 * 2 ^ 52",
"new": "m < 2046 * 2 ^ 52",
"definition": "F64.ofMag",
"claim": "C62: overflow only above the largest double",
"expect": [
"C62"
],
"count": 1
},
{
"id": "F12",
"file": "Verif/Model/DeadReckoning.lean",
"within": "get_rotation_matrix",
"old": "let r12 := F64.sub",
"new": "let r12 := F64.add",
"definition": "Dbl.get_rotation_matrix",
"claim": "C63/C64: sign in the rotation matrix",
"expect": [
"C64"
],
"count": 1
},
{
"id": "F13",
"file": "Verif/Model/DeadReckoning.lean",
"within": "get_rotation_matrix",
"old": "| 0 => r31 | 1 => r32 | 2 => r33",
"new": "| 0 => r13 | 1 => r32 | 2 => r33",
"definition": "Dbl.get_rotation_matrix",
"claim": "C64: entry 31 of the rotation matrix",
"expect": [
"C64"
],
"count": 1
},
{
"id": "F14",
"file": "Verif/Model/DeadReckoning.lean",
"within": "rates",
"old": "F64.absLt c_theta gimbal",
"new": "F64.absLt t_theta gimbal",
"definition": "Dbl.rates",
"claim": "C65: gimbal-lock branch tests the cosine",
"expect": [
"C65"
],
"count": 1
},
{
"id": "F15",
"file": "Verif/Model/DeadReckoning.lean",
"within": "rates",
"old": "F64.mk 0 0 0)",
"new": "r)",
"definition": "Dbl.rates",
"claim": "C65: d_psi is 0 in the gimbal-lock branch",
"expect": [
"C65"
],
"count": 1
},
{
"id": "F16",
"file": "Verif/Model/DeadReckoning.lean",
"within": "rates",
"old": "F64.div (F64.add (F64.mul q s_phi)",
"new": "F64.div (F64.add (F64.mul q c_phi)",
"definition": "Dbl.rates",
"claim": "C65: rate of psi",
"expect": [
"C65"
],
"count": 1
},
{
"id": "F17",
"file": "Verif/Model/DeadReckoning.lean",
"within": "drm_rpw",
"old": "F64.mul d_psi dt",
"new": "F64.mul d_phi dt",
"definition": "Dbl.drm_rpw",
"claim": "C65: orientation changes by psi rate",
"expect": [
"C65"
],
"count": 1
},
{
"id": "F18",
"file": "Verif/Model/DeadReckoning.lean",
"within": "drm_rvw",
"old": "let (_, new_orientation) ← drm_rpw P position velocity dt orientation",
"new": "let (_, new_orientation) ← drm_rpw P position velocity dt2 orientation",
"definition": "Dbl.drm_rvw",
"claim": "C65: orientation of RVW uses dt",
"expect": [
"C65"
],
"count": 1
},
{
"id": "F19",
"file": "Verif/Model/DeadReckoning.lean",
"within": "drm_fvw",
"old": "(vmul (vhalf acceleration) dt2)",
"new": "(vmul acceleration dt2)",
"definition": "Dbl.drm_fvw",
"claim": "C63: 0.5 a t^2",
"expect": [
"C63"
],
"count": 1
},
{
"id": "F20",
"file": "Verif/Model/DeadReckoning.lean",
"within": "drm_fpb",
"old": "let velocity_world := P.matvec R_wb velocity",
"new": "let velocity_world := velocity",
"definition": "Dbl.drm_fpb",
"claim": "C64: body velocity rotated",
"expect": [
"C64"
],
"count": 1
},
{
"id": "F21",
"file": "Verif/Model/DeadReckoning.lean",
"within": "drm_rpb",
"old": "(vmul velocity_world dt), new_orientation)",
"new": "(vmul velocity_world dt), orientation)",
"definition": "Dbl.drm_rpb",
"claim": "C65: orientation rotates in RPB",
"expect": [
"C65"
],
"count": 1
},
{
"id": "F22",
"file": "Verif/Model/DeadReckoning.lean",
"within": "drm_rvb",
"old": "(orientation 0) (orientation 1) (orientation 2)",
"new": "(new_orientation 0) (new_orientation 1) (new_orientation 2)",
"definition": "Dbl.drm_rvb",
"claim": "C64: displacement rotated by the old orientation",
"expect": [
"C64"
],
"count": 1
},
{
"id": "F23",
"file": "Verif/Model/DeadReckoning.lean",
"within": "drm_fvb",
"old": "vadd (vmul velocity dt) (vmul (vhalf",
"new": "vadd (vmul velocity dt2) (vmul (vhalf",
"definition": "Dbl.drm_fvb",
"claim": "C64: v t term",
"expect": [
"C64"
],
"count": 1
},
{
"id": "F24",
"file": "Verif/Model/DeadReckoning.lean",
"within": "trig",
"old": "x.expo = 2047 ∧ x.frac = 0",
"new": "x.expo = 2047",
"definition": "Dbl.trig",
"claim": "C62: NaN gives NaN, only infinities raise",
"expect": [
"C62"
],
"count": 1
},
{
"id": "F25",
"file": "Verif/Py/Sqrt.lean",
"within": "sqrtMag",
"old": "if q * q = A then 0 else 1",
"new": "0",
"definition": "F64.sqrtMag",
"claim": "C70: sqrt accuracy (no sticky bit; only ties are affected)",
"expect": [
"C70"
],
"count": 1
},
{
"id": "F26",
"file": "Verif/Py/Sqrt.lean",
"within": "isqrt",
"old": "(r + 1) * (r + 1) ≤ A",
"new": "(r + 1) * (r + 1) < A",
"definition": "F64.isqrt",
"claim": "C70: sqrt of perfect squares (masked by the sticky bit)",
"expect": [
"C70"
],
"count": 1
},
{
"id": "F27",
"file": "Verif/Py/Sqrt.lean",
"within": "sqrt",
"old": "else if x.sign = 1 then .error .valueError",
"new": "else if x.sign = 1 then .ok nan",
"definition": "F64.sqrt",
"claim": "C70: ValueError for negative numbers",
"expect": [
"C70"
],
"count": 1
},
{
"id": "F28",
"file": "Verif/Py/Sqrt.lean",
"within": "sqrt",
"old": "else if x.mag = 0 then .ok x",
"new": "else if x.mag = 0 then .ok nan",
"definition": "F64.sqrt",
"claim": "C70: sqrt 0 is 0",
"expect": [
"C70"
],
"count": 1
},
{
"id": "F29",
"file": "Verif/Py/Sqrt.lean",
"within": "pyDiv",
"old": ".error .zeroDivisionError",
"new": ".ok nan",
"definition": "F64.pyDiv",
"claim": "C70/C71: division by zero raises",
"expect": [
"C70"
],
"count": 1
},
{
"id": "F30",
"file": "Verif/Py/Sqrt.lean",
"within": "le",
"old": "x.units ≤ y.units",
"new": "x.units < y.units",
"definition": "F64.le",
"claim": "C71: comparison in the loop (only equality affected)",
"expect": [
"C71"
],
"count": 1
},
{
"id": "F31",
"file": "Verif/Py/Sqrt.lean",
"within": "lt",
"old": "x.units < y.units",
"new": "x.units ≤ y.units",
"definition": "F64.lt",
"claim": "C71: centre of the Earth raises",
"expect": [
"C71"
],
"count": 1
},
{
"id": "F32",
"file": "Verif/Py/Sqrt.lean",
"within": "abs",
"old": "mk 0 x.expo",
"new": "mk x.sign x.expo",
"definition": "F64.abs",
"claim": "C71: loop compares the magnitude of the change",
"expect": [
"C71"
],
"count": 1
},
{
"id": "F33",
"file": "Verif/Model/RangeCoordinates.lean",
"within": "pi",
"old": "0x400921FB54442D18",
"new": "0x400921FB54442D19",
"definition": "Dbl.pi",
"claim": "C70: deg2rad error 4.7e-18",
"expect": [
"C70"
],
"count": 1
},
{
"id": "F34",
"file": "Verif/Model/RangeCoordinates.lean",
"within": "deg2rad",
"old": "(num 180)",
"new": "(num 200)",
"definition": "Dbl.deg2rad",
"claim": "C70: deg2rad",
"expect": [
"C70"
],
"count": 1
},
{
"id": "F35",
"file": "Verif/Model/RangeCoordinates.lean",
"within": "b",
"old": "0x41583FC4141BDA51",
"new": "0x41583FC4141BDA52",
"definition": "Dbl.WGS84.b",
"claim": "C70: b one unit off (1e-9 m)",
"expect": [
"C70"
],
"count": 1
},
{
"id": "F36",
"file": "Verif/Model/RangeCoordinates.lean",
"within": "e",
"old": "(num 2)",
"new": "(num 1)",
"definition": "Dbl.WGS84.e",
"claim": "C70: eccentricity",
"expect": [
"C70"
],
"count": 1
},
{
"id": "F37",
"file": "Verif/Model/RangeCoordinates.lean",
"within": "lla2ecef",
"old": "trig P.cos lon",
"new": "trig P.cos lat",
"definition": "Dbl.lla2ecef",
"claim": "C70: x uses the longitude",
"expect": [
"C70"
],
"count": 1
},
{
"id": "F38",
"file": "Verif/Model/RangeCoordinates.lean",
"within": "lla2ecef",
"old": "(F64.mul N (F64.sub (num 1) e2)) alt) s",
"new": "N alt) s",
"definition": "Dbl.lla2ecef",
"claim": "C70: z shortened by 1-e^2",
"expect": [
"C70"
],
"count": 1
},
{
"id": "F39",
"file": "Verif/Model/RangeCoordinates.lean",
"within": "lla2gcc",
"old": "![lat0, lon0, a0]",
"new": "![lon0, lat0, a0]",
"definition": "Dbl.lla2gcc",
"claim": "C70: origin is lon, lat",
"expect": [
"C70"
],
"count": 1
},
{
"id": "F40",
"file": "Verif/Model/RangeCoordinates.lean",
"within": "round2",
"old": "x.mag * 100",
"new": "x.mag * 10",
"definition": "Dbl.round2",
"claim": "C71: height over the pole to centimetres",
"expect": [
"C71"
],
"count": 1
},
{
"id": "F41",
"file": "Verif/Model/RangeCoordinates.lean",
"within": "ecef2lla_init",
"old": "N := a",
"new": "N := b",
"definition": "Dbl.ecef2lla_init",
"claim": "C71: start of the loop (converges anyway; bounds may still hold)",
"expect": [
"C71"
],
"count": 1
},
{
"id": "F42",
"file": "Verif/Model/RangeCoordinates.lean",
"within": "ecef2lla_body",
"old": "let alt := F64.sub r N",
"new": "let alt := F64.sub r s.N",
"definition": "Dbl.ecef2lla_body",
"claim": "C71: altitude uses the new N",
"expect": [
"C71"
],
"count": 1
},
{
"id": "F43",
"file": "Verif/Model/RangeCoordinates.lean",
"within": "ecef2lla_body",
"old": "let previousLat := s.lat",
"new": "let previousLat := s.previousLat",
"definition": "Dbl.ecef2lla_body",
"claim": "C71: previousLat is updated (else the loop runs forever)",
"expect": [
"C71"
],
"count": 1
},
{
"id": "F44",
"file": "Verif/Model/RangeCoordinates.lean",
"within": "ecef2lla_body",
"old": "F64.mul (F64.mul e2 s.N) sinLat",
"new": "F64.mul e2 sinLat",
"definition": "Dbl.ecef2lla_body",
"claim": "C71: latitude accuracy",
"expect": [
"C71"
],
"count": 1
},
{
"id": "F45",
"file": "Verif/Model/RangeCoordinates.lean",
"within": "ecef2lla",
"old": "let lon := L.atan2 y x",
"new": "let lon := L.atan2 x y",
"definition": "Dbl.ecef2lla",
"claim": "C71: longitude",
"expect": [
"C71"
],
"count": 1
},
{
"id": "F46",
"file": "Verif/Model/RangeCoordinates.lean",
"within": "ecef2lla",
"old": "![F64.neg (num 90), num 69",
"new": "![num 90, num 69",
"definition": "Dbl.ecef2lla",
"claim": "C71: south pole",
"expect": [
"C71"
],
"count": 1
},
{
"id": "F47",
"file": "Verif/Model/RangeCoordinates.lean",
"within": "ecef2lla",
"old": "round2 (F64.sub (F64.neg z) b)",
"new": "round2 (F64.sub z b)",
"definition": "Dbl.ecef2lla",
"claim": "C71: altitude at the south pole",
"expect": [
"C71"
],
"count": 1
},
{
"id": "F48",
"file": "Verif/Model/RangeCoordinates.lean",
"within": "ecef2lla",
"old": "rad2deg lon, s.alt",
"new": "lon, s.alt",
"definition": "Dbl.ecef2lla",
"claim": "C71: longitude in degrees",
"expect": [
"C71"
],
"count": 1
},
{
"id": "F49",
"file": "Verif/Model/RangeCoordinates.lean",
"within": "defaultTolerance",
"old": "0x3E112E0BE826D695",
"new": "0x3F50624DD2F1A9FC",
"definition": "Dbl.defaultTolerance",
"claim": "C71: default tolerance qualifies (1e-3 instead of 1e-9)",
"expect": [
"C71"
],
"count": 1
},
{
"id": "F50",
"file": "Verif/Model/RangeCoordinates.lean",
"within": "normal",
"old": "(num 1) s",
"new": "(num 1) x",
"definition": "Dbl.normal",
"claim": "C70: radius of curvature",
"expect": [
"C70"
],
"count": 1
}
]