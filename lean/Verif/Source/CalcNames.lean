/-!
# Names in the numerical modules

Written by `tools/gencalc.py`.
-/

namespace Dis.Calc

/-- A name in the source (/repo/opendis/RangeCoordinates.py, /repo/opendis/DeadReckoning.py). -/
abbrev Ident := Nat

namespace N

/-- The name `self` in /repo/opendis. -/
abbrev self : Ident := 0

/-- The name `dtype` in /repo/opendis. -/
abbrev dtype : Ident := 1

/-- The name `split` in /repo/opendis. -/
abbrev split : Ident := 2

/-- The name `len` in /repo/opendis. -/
abbrev len : Ident := 3

/-- The name `range` in /repo/opendis. -/
abbrev range : Ident := 4

/-- The name `abs` in /repo/opendis. -/
abbrev abs : Ident := 5

/-- The name `round` in /repo/opendis. -/
abbrev round : Ident := 6

/-- The name `int` in /repo/opendis. -/
abbrev int : Ident := 7

/-- The name `float` in /repo/opendis. -/
abbrev float : Ident := 8

/-- The name `list` in /repo/opendis. -/
abbrev list : Ident := 9

/-- The name `sqrt` in /repo/opendis. -/
abbrev sqrt : Ident := 10

/-- The name `pi` in /repo/opendis. -/
abbrev pi : Ident := 11

/-- The name `sin` in /repo/opendis. -/
abbrev sin : Ident := 12

/-- The name `cos` in /repo/opendis. -/
abbrev cos : Ident := 13

/-- The name `tan` in /repo/opendis. -/
abbrev tan : Ident := 14

/-- The name `atan` in /repo/opendis. -/
abbrev atan : Ident := 15

/-- The name `atan2` in /repo/opendis. -/
abbrev atan2 : Ident := 16

/-- The name `array` in /repo/opendis. -/
abbrev array : Ident := 17

/-- The name `dot` in /repo/opendis. -/
abbrev dot : Ident := 18

/-- The name `identity` in /repo/opendis. -/
abbrev identity : Ident := 19

/-- The name `zeros` in /repo/opendis. -/
abbrev zeros : Ident := 20

/-- The name `deg` in /repo/opendis. -/
abbrev deg : Ident := 21

/-- The name `rad` in /repo/opendis. -/
abbrev rad : Ident := 22

/-- The name `data` in /repo/opendis. -/
abbrev data : Ident := 23

/-- The name `dataRef` in /repo/opendis. -/
abbrev dataRef : Ident := 24

/-- The name `total` in /repo/opendis. -/
abbrev total : Ident := 25

/-- The name `index` in /repo/opendis. -/
abbrev index : Ident := 26

/-- The name `L` in /repo/opendis. -/
abbrev L : Ident := 27

/-- The name `a` in /repo/opendis. -/
abbrev a : Ident := 28

/-- The name `b` in /repo/opendis. -/
abbrev b : Ident := 29

/-- The name `f` in /repo/opendis. -/
abbrev f : Ident := 30

/-- The name `e` in /repo/opendis. -/
abbrev e : Ident := 31

/-- The name `c` in /repo/opendis. -/
abbrev c : Ident := 32

/-- The name `F` in /repo/opendis. -/
abbrev F : Ident := 33

/-- The name `mu` in /repo/opendis. -/
abbrev mu : Ident := 34

/-- The name `omega_ie` in /repo/opendis. -/
abbrev omega_ie : Ident := 35

/-- The name `g0` in /repo/opendis. -/
abbrev g0 : Ident := 36

/-- The name `ecef` in /repo/opendis. -/
abbrev ecef : Ident := 37

/-- The name `tolerance` in /repo/opendis. -/
abbrev tolerance : Ident := 38

/-- The name `x` in /repo/opendis. -/
abbrev x : Ident := 39

/-- The name `y` in /repo/opendis. -/
abbrev y : Ident := 40

/-- The name `z` in /repo/opendis. -/
abbrev z : Ident := 41

/-- The name `lon` in /repo/opendis. -/
abbrev lon : Ident := 42

/-- The name `alt` in /repo/opendis. -/
abbrev alt : Ident := 43

/-- The name `N` in /repo/opendis. -/
abbrev N : Ident := 44

/-- The name `wgs84` in /repo/opendis. -/
abbrev wgs84 : Ident := 45

/-- The name `p` in /repo/opendis. -/
abbrev p : Ident := 46

/-- The name `lat` in /repo/opendis. -/
abbrev lat : Ident := 47

/-- The name `previousLat` in /repo/opendis. -/
abbrev previousLat : Ident := 48

/-- The name `sinLat` in /repo/opendis. -/
abbrev sinLat : Ident := 49

/-- The name `rad2deg` in /repo/opendis. -/
abbrev rad2deg : Ident := 50

/-- The name `X` in /repo/opendis. -/
abbrev X : Ident := 51

/-- The name `Y` in /repo/opendis. -/
abbrev Y : Ident := 52

/-- The name `Z` in /repo/opendis. -/
abbrev Z : Ident := 53

/-- The name `psi` in /repo/opendis. -/
abbrev psi : Ident := 54

/-- The name `theta` in /repo/opendis. -/
abbrev theta : Ident := 55

/-- The name `phi` in /repo/opendis. -/
abbrev phi : Ident := 56

/-- The name `ecef2lla` in /repo/opendis. -/
abbrev ecef2lla : Ident := 57

/-- The name `x0` in /repo/opendis. -/
abbrev x0 : Ident := 58

/-- The name `y0` in /repo/opendis. -/
abbrev y0 : Ident := 59

/-- The name `z0` in /repo/opendis. -/
abbrev z0 : Ident := 60

/-- The name `rot_array_1` in /repo/opendis. -/
abbrev rot_array_1 : Ident := 61

/-- The name `rotate_3x3` in /repo/opendis. -/
abbrev rotate_3x3 : Ident := 62

/-- The name `x1` in /repo/opendis. -/
abbrev x1 : Ident := 63

/-- The name `y1` in /repo/opendis. -/
abbrev y1 : Ident := 64

/-- The name `z1` in /repo/opendis. -/
abbrev z1 : Ident := 65

/-- The name `rot_array_2` in /repo/opendis. -/
abbrev rot_array_2 : Ident := 66

/-- The name `x2` in /repo/opendis. -/
abbrev x2 : Ident := 67

/-- The name `y2` in /repo/opendis. -/
abbrev y2 : Ident := 68

/-- The name `z2` in /repo/opendis. -/
abbrev z2 : Ident := 69

/-- The name `rot_array_3` in /repo/opendis. -/
abbrev rot_array_3 : Ident := 70

/-- The name `x3` in /repo/opendis. -/
abbrev x3 : Ident := 71

/-- The name `y3` in /repo/opendis. -/
abbrev y3 : Ident := 72

/-- The name `z3` in /repo/opendis. -/
abbrev z3 : Ident := 73

/-- The name `a0` in /repo/opendis. -/
abbrev a0 : Ident := 74

/-- The name `deg2rad` in /repo/opendis. -/
abbrev deg2rad : Ident := 75

/-- The name `ecefvec2nedvec` in /repo/opendis. -/
abbrev ecefvec2nedvec : Ident := 76

/-- The name `X0` in /repo/opendis. -/
abbrev X0 : Ident := 77

/-- The name `Y0` in /repo/opendis. -/
abbrev Y0 : Ident := 78

/-- The name `Z0` in /repo/opendis. -/
abbrev Z0 : Ident := 79

/-- The name `yaw` in /repo/opendis. -/
abbrev yaw : Ident := 80

/-- The name `pitch` in /repo/opendis. -/
abbrev pitch : Ident := 81

/-- The name `Y2` in /repo/opendis. -/
abbrev Y2 : Ident := 82

/-- The name `Z2` in /repo/opendis. -/
abbrev Z2 : Ident := 83

/-- The name `roll` in /repo/opendis. -/
abbrev roll : Ident := 84

/-- The name `origin` in /repo/opendis. -/
abbrev origin : Ident := 85

/-- The name `llaOrigin` in /repo/opendis. -/
abbrev llaOrigin : Ident := 86

/-- The name `Re2t` in /repo/opendis. -/
abbrev Re2t : Ident := 87

/-- The name `ned` in /repo/opendis. -/
abbrev ned : Ident := 88

/-- The name `ecef2ned` in /repo/opendis. -/
abbrev ecef2ned : Ident := 89

/-- The name `ned2pae` in /repo/opendis. -/
abbrev ned2pae : Ident := 90

/-- The name `lla` in /repo/opendis. -/
abbrev lla : Ident := 91

/-- The name `utm` in /repo/opendis. -/
abbrev utm : Ident := 92

/-- The name `info` in /repo/opendis. -/
abbrev info : Ident := 93

/-- The name `lla2utm` in /repo/opendis. -/
abbrev lla2utm : Ident := 94

/-- The name `geoOrigin` in /repo/opendis. -/
abbrev geoOrigin : Ident := 95

/-- The name `lon0` in /repo/opendis. -/
abbrev lon0 : Ident := 96

/-- The name `lat0` in /repo/opendis. -/
abbrev lat0 : Ident := 97

/-- The name `lla2ecef` in /repo/opendis. -/
abbrev lla2ecef : Ident := 98

/-- The name `zoneNumber` in /repo/opendis. -/
abbrev zoneNumber : Ident := 99

/-- The name `zone` in /repo/opendis. -/
abbrev zone : Ident := 100

/-- The name `utmLetterDesignator` in /repo/opendis. -/
abbrev utmLetterDesignator : Ident := 101

/-- The name `lonOrigin` in /repo/opendis. -/
abbrev lonOrigin : Ident := 102

/-- The name `latRad` in /repo/opendis. -/
abbrev latRad : Ident := 103

/-- The name `lonRad` in /repo/opendis. -/
abbrev lonRad : Ident := 104

/-- The name `lonOriginRad` in /repo/opendis. -/
abbrev lonOriginRad : Ident := 105

/-- The name `k0` in /repo/opendis. -/
abbrev k0 : Ident := 106

/-- The name `eSquared` in /repo/opendis. -/
abbrev eSquared : Ident := 107

/-- The name `ePrimeSquared` in /repo/opendis. -/
abbrev ePrimeSquared : Ident := 108

/-- The name `T` in /repo/opendis. -/
abbrev T : Ident := 109

/-- The name `C` in /repo/opendis. -/
abbrev C : Ident := 110

/-- The name `A` in /repo/opendis. -/
abbrev A : Ident := 111

/-- The name `M` in /repo/opendis. -/
abbrev M : Ident := 112

/-- The name `M0` in /repo/opendis. -/
abbrev M0 : Ident := 113

/-- The name `k` in /repo/opendis. -/
abbrev k : Ident := 114

/-- The name `Rt2e` in /repo/opendis. -/
abbrev Rt2e : Ident := 115

/-- The name `euclideanDistance` in /repo/opendis. -/
abbrev euclideanDistance : Ident := 116

/-- The name `alpha` in /repo/opendis. -/
abbrev alpha : Ident := 117

/-- The name `epsilon` in /repo/opendis. -/
abbrev epsilon : Ident := 118

/-- The name `normal_vec` in /repo/opendis. -/
abbrev normal_vec : Ident := 119

/-- The name `n_x` in /repo/opendis. -/
abbrev n_x : Ident := 120

/-- The name `nnt` in /repo/opendis. -/
abbrev nnt : Ident := 121

/-- The name `transpose` in /repo/opendis. -/
abbrev transpose : Ident := 122

/-- The name `_IDENTITY_3X3` in /repo/opendis. -/
abbrev _IDENTITY_3X3 : Ident := 123

/-- The name `arr` in /repo/opendis. -/
abbrev arr : Ident := 124

/-- The name `WGS84` in /repo/opendis. -/
abbrev WGS84 : Ident := 125

/-- The name `ecef2llarpy` in /repo/opendis. -/
abbrev ecef2llarpy : Ident := 126

/-- The name `ecef2pae` in /repo/opendis. -/
abbrev ecef2pae : Ident := 127

/-- The name `ecef2utm` in /repo/opendis. -/
abbrev ecef2utm : Ident := 128

/-- The name `lla2gcc` in /repo/opendis. -/
abbrev lla2gcc : Ident := 129

/-- The name `llarpy2ecef` in /repo/opendis. -/
abbrev llarpy2ecef : Ident := 130

/-- The name `ned2ecef` in /repo/opendis. -/
abbrev ned2ecef : Ident := 131

/-- The name `GPS` in /repo/opendis. -/
abbrev GPS : Ident := 132

/-- The name `v` in /repo/opendis. -/
abbrev v : Ident := 133

/-- The name `np` in /repo/opendis. -/
abbrev np : Ident := 134

/-- The name `c_psi` in /repo/opendis. -/
abbrev c_psi : Ident := 135

/-- The name `math` in /repo/opendis. -/
abbrev math : Ident := 136

/-- The name `s_psi` in /repo/opendis. -/
abbrev s_psi : Ident := 137

/-- The name `c_theta` in /repo/opendis. -/
abbrev c_theta : Ident := 138

/-- The name `s_theta` in /repo/opendis. -/
abbrev s_theta : Ident := 139

/-- The name `c_phi` in /repo/opendis. -/
abbrev c_phi : Ident := 140

/-- The name `s_phi` in /repo/opendis. -/
abbrev s_phi : Ident := 141

/-- The name `r11` in /repo/opendis. -/
abbrev r11 : Ident := 142

/-- The name `r12` in /repo/opendis. -/
abbrev r12 : Ident := 143

/-- The name `r13` in /repo/opendis. -/
abbrev r13 : Ident := 144

/-- The name `r21` in /repo/opendis. -/
abbrev r21 : Ident := 145

/-- The name `r22` in /repo/opendis. -/
abbrev r22 : Ident := 146

/-- The name `r23` in /repo/opendis. -/
abbrev r23 : Ident := 147

/-- The name `r31` in /repo/opendis. -/
abbrev r31 : Ident := 148

/-- The name `r32` in /repo/opendis. -/
abbrev r32 : Ident := 149

/-- The name `r33` in /repo/opendis. -/
abbrev r33 : Ident := 150

/-- The name `omega` in /repo/opendis. -/
abbrev omega : Ident := 151

/-- The name `wx` in /repo/opendis. -/
abbrev wx : Ident := 152

/-- The name `wy` in /repo/opendis. -/
abbrev wy : Ident := 153

/-- The name `wz` in /repo/opendis. -/
abbrev wz : Ident := 154

/-- The name `position` in /repo/opendis. -/
abbrev position : Ident := 155

/-- The name `orientation` in /repo/opendis. -/
abbrev orientation : Ident := 156

/-- The name `_to_numpy` in /repo/opendis. -/
abbrev _to_numpy : Ident := 157

/-- The name `velocity` in /repo/opendis. -/
abbrev velocity : Ident := 158

/-- The name `dt` in /repo/opendis. -/
abbrev dt : Ident := 159

/-- The name `pos` in /repo/opendis. -/
abbrev pos : Ident := 160

/-- The name `vel` in /repo/opendis. -/
abbrev vel : Ident := 161

/-- The name `new_position` in /repo/opendis. -/
abbrev new_position : Ident := 162

/-- The name `angular_velocity` in /repo/opendis. -/
abbrev angular_velocity : Ident := 163

/-- The name `ori` in /repo/opendis. -/
abbrev ori : Ident := 164

/-- The name `ang_vel` in /repo/opendis. -/
abbrev ang_vel : Ident := 165

/-- The name `q` in /repo/opendis. -/
abbrev q : Ident := 166

/-- The name `r` in /repo/opendis. -/
abbrev r : Ident := 167

/-- The name `t_theta` in /repo/opendis. -/
abbrev t_theta : Ident := 168

/-- The name `d_phi` in /repo/opendis. -/
abbrev d_phi : Ident := 169

/-- The name `d_theta` in /repo/opendis. -/
abbrev d_theta : Ident := 170

/-- The name `d_psi` in /repo/opendis. -/
abbrev d_psi : Ident := 171

/-- The name `new_orientation` in /repo/opendis. -/
abbrev new_orientation : Ident := 172

/-- The name `acceleration` in /repo/opendis. -/
abbrev acceleration : Ident := 173

/-- The name `acc` in /repo/opendis. -/
abbrev acc : Ident := 174

/-- The name `_` in /repo/opendis. -/
abbrev «_» : Ident := 175

/-- The name `drm_rpw` in /repo/opendis. -/
abbrev drm_rpw : Ident := 176

/-- The name `R_wb` in /repo/opendis. -/
abbrev R_wb : Ident := 177

/-- The name `get_rotation_matrix` in /repo/opendis. -/
abbrev get_rotation_matrix : Ident := 178

/-- The name `velocity_world` in /repo/opendis. -/
abbrev velocity_world : Ident := 179

/-- The name `displacement_body` in /repo/opendis. -/
abbrev displacement_body : Ident := 180

/-- The name `displacement_world` in /repo/opendis. -/
abbrev displacement_world : Ident := 181

/-- The name `get_angular_velocity_matrix` in /repo/opendis. -/
abbrev get_angular_velocity_matrix : Ident := 182

/-- The name `drm_static` in /repo/opendis. -/
abbrev drm_static : Ident := 183

/-- The name `drm_fpw` in /repo/opendis. -/
abbrev drm_fpw : Ident := 184

/-- The name `drm_rvw` in /repo/opendis. -/
abbrev drm_rvw : Ident := 185

/-- The name `drm_fvw` in /repo/opendis. -/
abbrev drm_fvw : Ident := 186

/-- The name `drm_fpb` in /repo/opendis. -/
abbrev drm_fpb : Ident := 187

/-- The name `drm_rpb` in /repo/opendis. -/
abbrev drm_rpb : Ident := 188

/-- The name `drm_rvb` in /repo/opendis. -/
abbrev drm_rvb : Ident := 189

/-- The name `drm_fvb` in /repo/opendis. -/
abbrev drm_fvb : Ident := 190

end N

/-- The names with their numbers (/repo/opendis/RangeCoordinates.py, /repo/opendis/DeadReckoning.py). -/
def names : List (String × Ident) :=
  [("self", N.self),
   ("dtype", N.dtype),
   ("split", N.split),
   ("len", N.len),
   ("range", N.range),
   ("abs", N.abs),
   ("round", N.round),
   ("int", N.int),
   ("float", N.float),
   ("list", N.list),
   ("sqrt", N.sqrt),
   ("pi", N.pi),
   ("sin", N.sin),
   ("cos", N.cos),
   ("tan", N.tan),
   ("atan", N.atan),
   ("atan2", N.atan2),
   ("array", N.array),
   ("dot", N.dot),
   ("identity", N.identity),
   ("zeros", N.zeros),
   ("deg", N.deg),
   ("rad", N.rad),
   ("data", N.data),
   ("dataRef", N.dataRef),
   ("total", N.total),
   ("index", N.index),
   ("L", N.L),
   ("a", N.a),
   ("b", N.b),
   ("f", N.f),
   ("e", N.e),
   ("c", N.c),
   ("F", N.F),
   ("mu", N.mu),
   ("omega_ie", N.omega_ie),
   ("g0", N.g0),
   ("ecef", N.ecef),
   ("tolerance", N.tolerance),
   ("x", N.x),
   ("y", N.y),
   ("z", N.z),
   ("lon", N.lon),
   ("alt", N.alt),
   ("N", N.N),
   ("wgs84", N.wgs84),
   ("p", N.p),
   ("lat", N.lat),
   ("previousLat", N.previousLat),
   ("sinLat", N.sinLat),
   ("rad2deg", N.rad2deg),
   ("X", N.X),
   ("Y", N.Y),
   ("Z", N.Z),
   ("psi", N.psi),
   ("theta", N.theta),
   ("phi", N.phi),
   ("ecef2lla", N.ecef2lla),
   ("x0", N.x0),
   ("y0", N.y0),
   ("z0", N.z0),
   ("rot_array_1", N.rot_array_1),
   ("rotate_3x3", N.rotate_3x3),
   ("x1", N.x1),
   ("y1", N.y1),
   ("z1", N.z1),
   ("rot_array_2", N.rot_array_2),
   ("x2", N.x2),
   ("y2", N.y2),
   ("z2", N.z2),
   ("rot_array_3", N.rot_array_3),
   ("x3", N.x3),
   ("y3", N.y3),
   ("z3", N.z3),
   ("a0", N.a0),
   ("deg2rad", N.deg2rad),
   ("ecefvec2nedvec", N.ecefvec2nedvec),
   ("X0", N.X0),
   ("Y0", N.Y0),
   ("Z0", N.Z0),
   ("yaw", N.yaw),
   ("pitch", N.pitch),
   ("Y2", N.Y2),
   ("Z2", N.Z2),
   ("roll", N.roll),
   ("origin", N.origin),
   ("llaOrigin", N.llaOrigin),
   ("Re2t", N.Re2t),
   ("ned", N.ned),
   ("ecef2ned", N.ecef2ned),
   ("ned2pae", N.ned2pae),
   ("lla", N.lla),
   ("utm", N.utm),
   ("info", N.info),
   ("lla2utm", N.lla2utm),
   ("geoOrigin", N.geoOrigin),
   ("lon0", N.lon0),
   ("lat0", N.lat0),
   ("lla2ecef", N.lla2ecef),
   ("zoneNumber", N.zoneNumber),
   ("zone", N.zone),
   ("utmLetterDesignator", N.utmLetterDesignator),
   ("lonOrigin", N.lonOrigin),
   ("latRad", N.latRad),
   ("lonRad", N.lonRad),
   ("lonOriginRad", N.lonOriginRad),
   ("k0", N.k0),
   ("eSquared", N.eSquared),
   ("ePrimeSquared", N.ePrimeSquared),
   ("T", N.T),
   ("C", N.C),
   ("A", N.A),
   ("M", N.M),
   ("M0", N.M0),
   ("k", N.k),
   ("Rt2e", N.Rt2e),
   ("euclideanDistance", N.euclideanDistance),
   ("alpha", N.alpha),
   ("epsilon", N.epsilon),
   ("normal_vec", N.normal_vec),
   ("n_x", N.n_x),
   ("nnt", N.nnt),
   ("transpose", N.transpose),
   ("_IDENTITY_3X3", N._IDENTITY_3X3),
   ("arr", N.arr),
   ("WGS84", N.WGS84),
   ("ecef2llarpy", N.ecef2llarpy),
   ("ecef2pae", N.ecef2pae),
   ("ecef2utm", N.ecef2utm),
   ("lla2gcc", N.lla2gcc),
   ("llarpy2ecef", N.llarpy2ecef),
   ("ned2ecef", N.ned2ecef),
   ("GPS", N.GPS),
   ("v", N.v),
   ("np", N.np),
   ("c_psi", N.c_psi),
   ("math", N.math),
   ("s_psi", N.s_psi),
   ("c_theta", N.c_theta),
   ("s_theta", N.s_theta),
   ("c_phi", N.c_phi),
   ("s_phi", N.s_phi),
   ("r11", N.r11),
   ("r12", N.r12),
   ("r13", N.r13),
   ("r21", N.r21),
   ("r22", N.r22),
   ("r23", N.r23),
   ("r31", N.r31),
   ("r32", N.r32),
   ("r33", N.r33),
   ("omega", N.omega),
   ("wx", N.wx),
   ("wy", N.wy),
   ("wz", N.wz),
   ("position", N.position),
   ("orientation", N.orientation),
   ("_to_numpy", N._to_numpy),
   ("velocity", N.velocity),
   ("dt", N.dt),
   ("pos", N.pos),
   ("vel", N.vel),
   ("new_position", N.new_position),
   ("angular_velocity", N.angular_velocity),
   ("ori", N.ori),
   ("ang_vel", N.ang_vel),
   ("q", N.q),
   ("r", N.r),
   ("t_theta", N.t_theta),
   ("d_phi", N.d_phi),
   ("d_theta", N.d_theta),
   ("d_psi", N.d_psi),
   ("new_orientation", N.new_orientation),
   ("acceleration", N.acceleration),
   ("acc", N.acc),
   ("_", N.«_»),
   ("drm_rpw", N.drm_rpw),
   ("R_wb", N.R_wb),
   ("get_rotation_matrix", N.get_rotation_matrix),
   ("velocity_world", N.velocity_world),
   ("displacement_body", N.displacement_body),
   ("displacement_world", N.displacement_world),
   ("get_angular_velocity_matrix", N.get_angular_velocity_matrix),
   ("drm_static", N.drm_static),
   ("drm_fpw", N.drm_fpw),
   ("drm_rvw", N.drm_rvw),
   ("drm_fvw", N.drm_fvw),
   ("drm_fpb", N.drm_fpb),
   ("drm_rpb", N.drm_rpb),
   ("drm_rvb", N.drm_rvb),
   ("drm_fvb", N.drm_fvb)]

end Dis.Calc
