import Verif.Py.Calc

/-!
# The syntax trees of the numerical modules

Written by `tools/gencalc.py`.
-/

namespace Dis.Calc

/-- `rangeCoordinates.deg2rad`, /repo/opendis/RangeCoordinates.py:49-51. -/
def rangeCoordinates.deg2rad : Fn where
  params := [(N.deg, none)]
  body :=
   [.ret (.bin .div (.bin .mul (.name N.deg) (.name N.pi)) (.int 180))]

/-- `rangeCoordinates.rad2deg`, /repo/opendis/RangeCoordinates.py:54-56. -/
def rangeCoordinates.rad2deg : Fn where
  params := [(N.rad, none)]
  body :=
   [.ret (.bin .div (.bin .mul (.name N.rad) (.int 180)) (.name N.pi))]

/-- `rangeCoordinates.euclideanDistance`, /repo/opendis/RangeCoordinates.py:59-69. -/
def rangeCoordinates.euclideanDistance : Fn where
  params := [(N.data, none), (N.dataRef, some .none)]
  body :=
   [.assign (.name N.total) (.int 0),
    .for N.index (.call N.range [.call N.len [.name N.data] []] [])
      [.ite (.cmp (.name N.dataRef) [(.is, .none)])
         [.augAdd N.total (.bin .pow (.index (.name N.data) (.name N.index)) (.int 2))]
         [.augAdd N.total (.bin .pow (.bin .sub (.index (.name N.data) (.name N.index)) (.index (.name N.dataRef) (.name N.index))) (.int 2))]],
    .ret (.call N.sqrt [.name N.total] [])]

/-- `rangeCoordinates.WGS84.g0`, /repo/opendis/RangeCoordinates.py:99-107. -/
def rangeCoordinates.WGS84.g0 : Fn where
  params := [(N.L, none)]
  body :=
   [.ret (.bin .div (.bin .mul (.dec 97803267715 (-10)) (.bin .add (.int 1) (.bin .mul (.dec 1931851353 (-12)) (.bin .pow (.call N.sin [.name N.L] []) (.int 2))))) (.call N.sqrt [.bin .sub (.int 1) (.bin .mul (.dec 66943800229 (-13)) (.bin .pow (.call N.sin [.name N.L] []) (.int 2)))] []))]

/-- `class WGS84`, /repo/opendis/RangeCoordinates.py:72-107. -/
def rangeCoordinates.WGS84 : Class where
  attrs :=
   [(N.a, .dec 63781370 (-1)),
    (N.b, .dec 63567523142 (-4)),
    (N.f, .bin .div (.bin .sub (.name N.a) (.name N.b)) (.name N.a)),
    (N.e, .call N.sqrt [.bin .mul (.name N.f) (.bin .sub (.int 2) (.name N.f))] []),
    (N.c, .dec 299792458 0),
    (N.F, .neg (.dec 4442807633 (-19))),
    (N.mu, .dec 3986005 8),
    (N.omega_ie, .dec 72921151467 (-15))]
  methods :=
   [(N.g0, rangeCoordinates.WGS84.g0)]

/-- `rangeCoordinates.GPS.ecef2lla`, /repo/opendis/RangeCoordinates.py:117-157. -/
def rangeCoordinates.GPS.ecef2lla : Fn where
  params := [(N.ecef, none), (N.tolerance, some (.dec 1 (-9)))]
  body :=
   [.assign (.name N.x) (.index (.name N.ecef) (.int 0)),
    .assign (.name N.y) (.index (.name N.ecef) (.int 1)),
    .assign (.name N.z) (.index (.name N.ecef) (.int 2)),
    .assign (.name N.lon) (.call N.atan2 [.name N.y, .name N.x] []),
    .assign (.name N.alt) (.int 0),
    .assign (.name N.N) (.attr (.attr (.name N.self) N.wgs84) N.a),
    .assign (.name N.p) (.call N.sqrt [.bin .add (.bin .pow (.name N.x) (.int 2)) (.bin .pow (.name N.y) (.int 2))] []),
    .assign (.name N.lat) (.int 0),
    .assign (.name N.previousLat) (.int 90),
    .ite (.and (.cmp (.name N.x) [(.eq, .int 0)]) (.cmp (.name N.y) [(.eq, .int 0)]))
      [.ite (.cmp (.name N.z) [(.gt, .int 0)])
         [.ret (.tuple [.dec 9000 (-2), .dec 6900 (-2), .call N.round [.bin .sub (.name N.z) (.attr (.attr (.name N.self) N.wgs84) N.b), .int 2] []])]
         [.ite (.cmp (.name N.z) [(.lt, .int 0)])
            [.ret (.tuple [.neg (.dec 9000 (-2)), .dec 6900 (-2), .call N.round [.bin .sub (.neg (.name N.z)) (.attr (.attr (.name N.self) N.wgs84) N.b), .int 2] []])]
            [.raise .exception]]]
      [],
    .while (.cmp (.call N.abs [.bin .sub (.name N.lat) (.name N.previousLat)] []) [(.ge, .name N.tolerance)])
      [.assign (.name N.previousLat) (.name N.lat),
       .assign (.name N.sinLat) (.bin .div (.name N.z) (.bin .add (.bin .mul (.name N.N) (.bin .sub (.int 1) (.bin .pow (.attr (.attr (.name N.self) N.wgs84) N.e) (.int 2)))) (.name N.alt))),
       .assign (.name N.lat) (.call N.atan [.bin .div (.bin .add (.name N.z) (.bin .mul (.bin .mul (.bin .pow (.attr (.attr (.name N.self) N.wgs84) N.e) (.int 2)) (.name N.N)) (.name N.sinLat))) (.name N.p)] []),
       .assign (.name N.N) (.bin .div (.attr (.attr (.name N.self) N.wgs84) N.a) (.call N.sqrt [.bin .sub (.int 1) (.bin .pow (.bin .mul (.attr (.attr (.name N.self) N.wgs84) N.e) (.name N.sinLat)) (.int 2))] [])),
       .assign (.name N.alt) (.bin .sub (.bin .div (.name N.p) (.call N.cos [.name N.lat] [])) (.name N.N))],
    .ret (.tuple [.call N.rad2deg [.name N.lat] [], .call N.rad2deg [.name N.lon] [], .name N.alt])]

/-- `rangeCoordinates.GPS.ecef2llarpy`, /repo/opendis/RangeCoordinates.py:160-232. -/
def rangeCoordinates.GPS.ecef2llarpy : Fn where
  params := [(N.X, none), (N.Y, none), (N.Z, none), (N.psi, none), (N.theta, none), (N.phi, none)]
  body :=
   [.assign (.tuple [.name N.lat, .name N.lon, .name N.alt]) (.method (.name N.self) N.ecef2lla [.tuple [.name N.X, .name N.Y, .name N.Z]] []),
    .assign (.name N.x0) (.call N.array [.list [.int 1, .int 0, .int 0]] []),
    .assign (.name N.y0) (.call N.array [.list [.int 0, .int 1, .int 0]] []),
    .assign (.name N.z0) (.call N.array [.list [.int 0, .int 0, .int 1]] []),
    .assign (.name N.rot_array_1) (.method (.name N.self) N.rotate_3x3 [.name N.psi, .name N.z0] []),
    .assign (.name N.x1) (.call N.dot [.name N.rot_array_1, .name N.x0] []),
    .assign (.name N.y1) (.call N.dot [.name N.rot_array_1, .name N.y0] []),
    .assign (.name N.z1) (.call N.dot [.name N.rot_array_1, .name N.z0] []),
    .assign (.name N.rot_array_2) (.method (.name N.self) N.rotate_3x3 [.name N.theta, .name N.y1] []),
    .assign (.name N.x2) (.call N.dot [.name N.rot_array_2, .name N.x1] []),
    .assign (.name N.y2) (.call N.dot [.name N.rot_array_2, .name N.y1] []),
    .assign (.name N.z2) (.call N.dot [.name N.rot_array_2, .name N.z1] []),
    .assign (.name N.rot_array_3) (.method (.name N.self) N.rotate_3x3 [.name N.phi, .name N.x2] []),
    .assign (.name N.x3) (.call N.dot [.name N.rot_array_3, .name N.x2] []),
    .assign (.name N.y3) (.call N.dot [.name N.rot_array_3, .name N.y2] []),
    .assign (.name N.z3) (.call N.dot [.name N.rot_array_3, .name N.z2] []),
    .assign (.name N.a0) (.method (.name N.self) N.ecefvec2nedvec [.call N.deg2rad [.name N.lat] [], .call N.deg2rad [.name N.lon] []] []),
    .assign (.name N.X0) (.index (.name N.a0) (.int 0)),
    .assign (.name N.Y0) (.index (.name N.a0) (.int 1)),
    .assign (.name N.Z0) (.index (.name N.a0) (.int 2)),
    .assign (.name N.yaw) (.call N.atan2 [.call N.dot [.name N.x3, .name N.Y0] [], .call N.dot [.name N.x3, .name N.X0] []] []),
    .assign (.name N.pitch) (.call N.atan2 [.neg (.call N.dot [.name N.x3, .name N.Z0] []), .call N.sqrt [.bin .add (.bin .pow (.call N.dot [.name N.x3, .name N.X0] []) (.int 2)) (.bin .pow (.call N.dot [.name N.x3, .name N.Y0] []) (.int 2))] []] []),
    .assign (.name N.Y2) (.call N.dot [.method (.name N.self) N.rotate_3x3 [.name N.yaw, .name N.Z0] [], .name N.Y0] []),
    .assign (.name N.Z2) (.call N.dot [.method (.name N.self) N.rotate_3x3 [.name N.pitch, .name N.Y2] [], .name N.Z0] []),
    .assign (.name N.roll) (.call N.atan2 [.call N.dot [.name N.y3, .name N.Z2] [], .call N.dot [.name N.y3, .name N.Y2] []] []),
    .ret (.tuple [.call N.deg2rad [.name N.lat] [], .call N.deg2rad [.name N.lon] [], .name N.alt, .name N.roll, .name N.pitch, .name N.yaw])]

/-- `rangeCoordinates.GPS.ecef2ned`, /repo/opendis/RangeCoordinates.py:235-248. -/
def rangeCoordinates.GPS.ecef2ned : Fn where
  params := [(N.ecef, none), (N.origin, none)]
  body :=
   [.assign (.name N.llaOrigin) (.method (.name N.self) N.ecef2lla [.name N.origin] []),
    .assign (.name N.lat) (.call N.deg2rad [.index (.name N.llaOrigin) (.int 0)] []),
    .assign (.name N.lon) (.call N.deg2rad [.index (.name N.llaOrigin) (.int 1)] []),
    .assign (.name N.Re2t) (.call N.array [.list [.list [.bin .mul (.neg (.call N.sin [.name N.lat] [])) (.call N.cos [.name N.lon] []), .bin .mul (.neg (.call N.sin [.name N.lat] [])) (.call N.sin [.name N.lon] []), .call N.cos [.name N.lat] []], .list [.neg (.call N.sin [.name N.lon] []), .call N.cos [.name N.lon] [], .int 0], .list [.bin .mul (.neg (.call N.cos [.name N.lat] [])) (.call N.cos [.name N.lon] []), .bin .mul (.neg (.call N.cos [.name N.lat] [])) (.call N.sin [.name N.lon] []), .neg (.call N.sin [.name N.lat] [])]]] []),
    .ret (.call N.list [.call N.dot [.name N.Re2t, .bin .sub (.call N.array [.name N.ecef] []) (.call N.array [.name N.origin] [])] []] [])]

/-- `rangeCoordinates.GPS.ecef2pae`, /repo/opendis/RangeCoordinates.py:251-260. -/
def rangeCoordinates.GPS.ecef2pae : Fn where
  params := [(N.ecef, none), (N.origin, none)]
  body :=
   [.assign (.name N.ned) (.method (.name N.self) N.ecef2ned [.name N.ecef, .name N.origin] []),
    .ret (.method (.name N.self) N.ned2pae [.name N.ned] [])]

/-- `rangeCoordinates.GPS.ecef2utm`, /repo/opendis/RangeCoordinates.py:263-266. -/
def rangeCoordinates.GPS.ecef2utm : Fn where
  params := [(N.ecef, none)]
  body :=
   [.assign (.name N.lla) (.method (.name N.self) N.ecef2lla [.name N.ecef] []),
    .assign (.tuple [.name N.utm, .name N.info]) (.method (.name N.self) N.lla2utm [.name N.lla] []),
    .ret (.tuple [.name N.utm, .name N.info])]

/-- `rangeCoordinates.GPS.ecefvec2nedvec`, /repo/opendis/RangeCoordinates.py:269-290. -/
def rangeCoordinates.GPS.ecefvec2nedvec : Fn where
  params := [(N.lat, none), (N.lon, none)]
  body :=
   [.ret (.call N.array [.list [.list [.bin .mul (.neg (.call N.sin [.name N.lat] [])) (.call N.cos [.name N.lon] []), .bin .mul (.neg (.call N.sin [.name N.lat] [])) (.call N.sin [.name N.lon] []), .call N.cos [.name N.lat] []], .list [.neg (.call N.sin [.name N.lon] []), .call N.cos [.name N.lon] [], .int 0], .list [.bin .mul (.neg (.call N.cos [.name N.lat] [])) (.call N.cos [.name N.lon] []), .bin .mul (.neg (.call N.cos [.name N.lat] [])) (.call N.sin [.name N.lon] []), .neg (.call N.sin [.name N.lat] [])]]] [])]

/-- `rangeCoordinates.GPS.lla2ecef`, /repo/opendis/RangeCoordinates.py:293-313. -/
def rangeCoordinates.GPS.lla2ecef : Fn where
  params := [(N.lla, none)]
  body :=
   [.assign (.name N.lat) (.call N.deg2rad [.index (.name N.lla) (.int 0)] []),
    .assign (.name N.lon) (.call N.deg2rad [.index (.name N.lla) (.int 1)] []),
    .assign (.name N.alt) (.index (.name N.lla) (.int 2)),
    .assign (.name N.N) (.bin .div (.attr (.attr (.name N.self) N.wgs84) N.a) (.call N.sqrt [.bin .sub (.int 1) (.bin .pow (.bin .mul (.attr (.attr (.name N.self) N.wgs84) N.e) (.call N.sin [.name N.lat] [])) (.int 2))] [])),
    .assign (.name N.x) (.bin .mul (.bin .mul (.bin .add (.name N.N) (.name N.alt)) (.call N.cos [.name N.lat] [])) (.call N.cos [.name N.lon] [])),
    .assign (.name N.y) (.bin .mul (.bin .mul (.bin .add (.name N.N) (.name N.alt)) (.call N.cos [.name N.lat] [])) (.call N.sin [.name N.lon] [])),
    .assign (.name N.z) (.bin .mul (.bin .add (.bin .mul (.name N.N) (.bin .sub (.int 1) (.bin .pow (.attr (.attr (.name N.self) N.wgs84) N.e) (.int 2)))) (.name N.alt)) (.call N.sin [.name N.lat] [])),
    .ret (.tuple [.name N.x, .name N.y, .name N.z])]

/-- `rangeCoordinates.GPS.lla2gcc`, /repo/opendis/RangeCoordinates.py:316-329. -/
def rangeCoordinates.GPS.lla2gcc : Fn where
  params := [(N.lla, none), (N.geoOrigin, some (.str ""))]
  body :=
   [.ite (.name N.geoOrigin)
      [.assign (.tuple [.name N.lon0, .name N.lat0, .name N.a0]) (.comp (.call N.float [.name N.c] []) N.c (.method (.name N.geoOrigin) N.split [] [])),
       .assign (.tuple [.name N.x0, .name N.y0, .name N.z0]) (.method (.name N.self) N.lla2ecef [.tuple [.name N.lat0, .name N.lon0, .name N.a0]] [])]
      [.assign (.tuple [.name N.x0, .name N.y0, .name N.z0]) (.tuple [.int 0, .int 0, .int 0])],
    .assign (.tuple [.name N.x, .name N.y, .name N.z]) (.method (.name N.self) N.lla2ecef [.name N.lla] []),
    .ret (.tuple [.bin .sub (.name N.x) (.name N.x0), .bin .sub (.name N.y) (.name N.y0), .bin .sub (.name N.z) (.name N.z0)])]

/-- `rangeCoordinates.GPS.lla2utm`, /repo/opendis/RangeCoordinates.py:332-400. -/
def rangeCoordinates.GPS.lla2utm : Fn where
  params := [(N.lla, none)]
  body :=
   [.assign (.name N.lat) (.index (.name N.lla) (.int 0)),
    .assign (.name N.lon) (.index (.name N.lla) (.int 1)),
    .assign (.name N.alt) (.index (.name N.lla) (.int 2)),
    .assign (.name N.zoneNumber) (.bin .add (.call N.int [.bin .div (.bin .add (.name N.lon) (.dec 180 0)) (.int 6)] []) (.int 1)),
    .ite (.and (.cmp (.dec 56 0) [(.le, .name N.lat), (.lt, .dec 64 0)]) (.cmp (.dec 3 0) [(.le, .name N.lon), (.lt, .dec 12 0)]))
      [.assign (.name N.zoneNumber) (.int 32)]
      [],
    .ite (.cmp (.dec 72 0) [(.le, .name N.lat), (.lt, .dec 84 0)])
      [.ite (.cmp (.dec 0 0) [(.le, .name N.lon), (.lt, .dec 9 0)])
         [.assign (.name N.zoneNumber) (.int 31)]
         [.ite (.cmp (.dec 9 0) [(.le, .name N.lon), (.lt, .dec 21 0)])
            [.assign (.name N.zoneNumber) (.int 33)]
            [.ite (.cmp (.dec 21 0) [(.le, .name N.lon), (.lt, .dec 33 0)])
               [.assign (.name N.zoneNumber) (.int 35)]
               [.ite (.cmp (.dec 33 0) [(.le, .name N.lon), (.lt, .dec 42 0)])
                  [.assign (.name N.zoneNumber) (.int 37)]
                  []]]]]
      [],
    .assign (.name N.zone) (.bin .mod (.str "%d%c") (.tuple [.name N.zoneNumber, .method (.name N.self) N.utmLetterDesignator [.name N.lat] []])),
    .assign (.name N.lonOrigin) (.bin .add (.bin .sub (.bin .mul (.bin .sub (.name N.zoneNumber) (.int 1)) (.int 6)) (.int 180)) (.int 3)),
    .assign (.name N.latRad) (.call N.deg2rad [.name N.lat] []),
    .assign (.name N.lonRad) (.call N.deg2rad [.name N.lon] []),
    .assign (.name N.lonOriginRad) (.call N.deg2rad [.name N.lonOrigin] []),
    .assign (.name N.k0) (.dec 9996 (-4)),
    .assign (.name N.eSquared) (.bin .pow (.attr (.attr (.name N.self) N.wgs84) N.e) (.int 2)),
    .assign (.name N.ePrimeSquared) (.bin .div (.name N.eSquared) (.bin .sub (.dec 1 0) (.name N.eSquared))),
    .assign (.name N.N) (.bin .div (.attr (.attr (.name N.self) N.wgs84) N.a) (.call N.sqrt [.bin .sub (.dec 1 0) (.bin .mul (.name N.eSquared) (.bin .pow (.call N.sin [.name N.latRad] []) (.int 2)))] [])),
    .assign (.name N.T) (.bin .pow (.call N.tan [.name N.latRad] []) (.int 2)),
    .assign (.name N.C) (.bin .mul (.name N.ePrimeSquared) (.bin .pow (.call N.cos [.name N.latRad] []) (.int 2))),
    .assign (.name N.A) (.bin .mul (.bin .sub (.name N.lonRad) (.name N.lonOriginRad)) (.call N.cos [.name N.latRad] [])),
    .assign (.name N.M) (.bin .mul (.attr (.attr (.name N.self) N.wgs84) N.a) (.bin .sub (.bin .add (.bin .sub (.bin .mul (.bin .sub (.bin .sub (.bin .sub (.dec 1 0) (.bin .div (.name N.eSquared) (.dec 4 0))) (.bin .div (.bin .mul (.dec 3 0) (.bin .pow (.name N.eSquared) (.int 2))) (.dec 64 0))) (.bin .div (.bin .mul (.dec 5 0) (.bin .pow (.name N.eSquared) (.int 3))) (.int 256))) (.name N.latRad)) (.bin .mul (.bin .add (.bin .add (.bin .div (.bin .mul (.dec 3 0) (.name N.eSquared)) (.dec 8 0)) (.bin .div (.bin .mul (.dec 3 0) (.bin .pow (.name N.eSquared) (.int 2))) (.dec 32 0))) (.bin .div (.bin .mul (.dec 45 0) (.bin .pow (.name N.eSquared) (.int 3))) (.dec 1024 0))) (.call N.sin [.bin .mul (.dec 2 0) (.name N.latRad)] []))) (.bin .mul (.bin .add (.bin .div (.bin .mul (.dec 15 0) (.bin .pow (.name N.eSquared) (.int 2))) (.dec 256 0)) (.bin .div (.bin .mul (.dec 45 0) (.bin .pow (.name N.eSquared) (.int 3))) (.dec 1024 0))) (.call N.sin [.bin .mul (.dec 4 0) (.name N.latRad)] []))) (.bin .mul (.bin .div (.bin .mul (.dec 35 0) (.bin .pow (.name N.eSquared) (.int 3))) (.dec 3072 0)) (.call N.sin [.bin .mul (.dec 6 0) (.name N.latRad)] [])))),
    .assign (.name N.M0) (.dec 0 0),
    .assign (.name N.x) (.bin .add (.bin .mul (.bin .mul (.name N.k0) (.name N.N)) (.bin .add (.bin .add (.name N.A) (.bin .div (.bin .mul (.bin .add (.bin .sub (.int 1) (.name N.T)) (.name N.C)) (.bin .pow (.name N.A) (.int 3))) (.dec 6 0))) (.bin .div (.bin .mul (.bin .sub (.bin .add (.bin .add (.bin .sub (.dec 5 0) (.bin .mul (.dec 18 0) (.name N.T))) (.bin .pow (.name N.T) (.int 2))) (.bin .mul (.dec 72 0) (.name N.C))) (.bin .mul (.dec 58 0) (.name N.ePrimeSquared))) (.bin .pow (.name N.A) (.int 5))) (.dec 120 0)))) (.dec 500000 0)),
    .assign (.name N.y) (.bin .mul (.name N.k0) (.bin .add (.bin .sub (.name N.M) (.name N.M0)) (.bin .mul (.bin .mul (.name N.N) (.call N.tan [.name N.latRad] [])) (.bin .add (.bin .add (.bin .div (.bin .pow (.name N.A) (.int 2)) (.dec 2 0)) (.bin .div (.bin .mul (.bin .add (.bin .add (.bin .sub (.dec 5 0) (.name N.T)) (.bin .mul (.dec 9 0) (.name N.C))) (.bin .mul (.dec 4 0) (.bin .pow (.name N.C) (.int 2)))) (.bin .pow (.name N.A) (.int 4))) (.dec 24 0))) (.bin .div (.bin .mul (.bin .sub (.bin .add (.bin .add (.bin .sub (.dec 61 0) (.bin .mul (.dec 58 0) (.name N.T))) (.bin .pow (.name N.T) (.int 2))) (.bin .mul (.dec 600 0) (.name N.C))) (.bin .mul (.dec 330 0) (.name N.ePrimeSquared))) (.bin .pow (.name N.A) (.int 6))) (.dec 720 0)))))),
    .assign (.name N.k) (.bin .mul (.name N.k0) (.bin .add (.bin .add (.bin .add (.int 1) (.bin .div (.bin .mul (.bin .add (.int 1) (.name N.C)) (.bin .pow (.name N.A) (.int 2))) (.dec 2 0))) (.bin .div (.bin .mul (.bin .sub (.bin .add (.bin .add (.bin .sub (.dec 5 0) (.bin .mul (.dec 4 0) (.name N.T))) (.bin .mul (.dec 42 0) (.name N.C))) (.bin .mul (.dec 13 0) (.bin .pow (.name N.C) (.int 2)))) (.bin .mul (.dec 28 0) (.name N.ePrimeSquared))) (.bin .pow (.name N.A) (.int 4))) (.dec 24 0))) (.bin .div (.bin .mul (.bin .add (.bin .sub (.dec 61 0) (.bin .mul (.dec 148 0) (.name N.T))) (.bin .mul (.dec 16 0) (.bin .pow (.name N.T) (.int 2)))) (.bin .pow (.name N.A) (.int 6))) (.dec 720 0)))),
    .assign (.name N.utm) (.list [.name N.x, .name N.y, .name N.alt]),
    .assign (.name N.info) (.list [.name N.zone, .name N.k]),
    .ret (.tuple [.name N.utm, .name N.info])]

/-- `rangeCoordinates.GPS.llarpy2ecef`, /repo/opendis/RangeCoordinates.py:403-476. -/
def rangeCoordinates.GPS.llarpy2ecef : Fn where
  params := [(N.lat, none), (N.lon, none), (N.alt, none), (N.roll, none), (N.pitch, none), (N.yaw, none)]
  body :=
   [.assign (.tuple [.name N.X, .name N.Y, .name N.Z]) (.method (.name N.self) N.lla2ecef [.tuple [.call N.rad2deg [.name N.lat] [], .call N.rad2deg [.name N.lon] [], .name N.alt]] []),
    .assign (.name N.a0) (.method (.name N.self) N.ecefvec2nedvec [.name N.lat, .name N.lon] []),
    .assign (.name N.x0) (.index (.name N.a0) (.int 0)),
    .assign (.name N.y0) (.index (.name N.a0) (.int 1)),
    .assign (.name N.z0) (.index (.name N.a0) (.int 2)),
    .assign (.name N.rot_array_1) (.method (.name N.self) N.rotate_3x3 [.name N.yaw, .name N.z0] []),
    .assign (.name N.x1) (.call N.dot [.name N.rot_array_1, .name N.x0] []),
    .assign (.name N.y1) (.call N.dot [.name N.rot_array_1, .name N.y0] []),
    .assign (.name N.z1) (.call N.dot [.name N.rot_array_1, .name N.z0] []),
    .assign (.name N.rot_array_2) (.method (.name N.self) N.rotate_3x3 [.name N.pitch, .name N.y1] []),
    .assign (.name N.x2) (.call N.dot [.name N.rot_array_2, .name N.x1] []),
    .assign (.name N.y2) (.call N.dot [.name N.rot_array_2, .name N.y1] []),
    .assign (.name N.z2) (.call N.dot [.name N.rot_array_2, .name N.z1] []),
    .assign (.name N.rot_array_3) (.method (.name N.self) N.rotate_3x3 [.name N.roll, .name N.x2] []),
    .assign (.name N.x3) (.call N.dot [.name N.rot_array_3, .name N.x2] []),
    .assign (.name N.y3) (.call N.dot [.name N.rot_array_3, .name N.y2] []),
    .assign (.name N.z3) (.call N.dot [.name N.rot_array_3, .name N.z2] []),
    .assign (.name N.X0) (.call N.array [.list [.int 1, .int 0, .int 0]] []),
    .assign (.name N.Y0) (.call N.array [.list [.int 0, .int 1, .int 0]] []),
    .assign (.name N.Z0) (.call N.array [.list [.int 0, .int 0, .int 1]] []),
    .assign (.name N.psi) (.call N.atan2 [.call N.dot [.name N.x3, .name N.Y0] [], .call N.dot [.name N.x3, .name N.X0] []] []),
    .assign (.name N.theta) (.call N.atan2 [.neg (.call N.dot [.name N.x3, .name N.Z0] []), .call N.sqrt [.bin .add (.bin .pow (.call N.dot [.name N.x3, .name N.X0] []) (.int 2)) (.bin .pow (.call N.dot [.name N.x3, .name N.Y0] []) (.int 2))] []] []),
    .assign (.name N.Y2) (.call N.dot [.method (.name N.self) N.rotate_3x3 [.name N.psi, .name N.Z0] [], .name N.Y0] []),
    .assign (.name N.Z2) (.call N.dot [.method (.name N.self) N.rotate_3x3 [.name N.theta, .name N.Y2] [], .name N.Z0] []),
    .assign (.name N.phi) (.call N.atan2 [.call N.dot [.name N.y3, .name N.Z2] [], .call N.dot [.name N.y3, .name N.Y2] []] []),
    .ret (.tuple [.name N.X, .name N.Y, .name N.Z, .name N.psi, .name N.theta, .name N.phi])]

/-- `rangeCoordinates.GPS.ned2ecef`, /repo/opendis/RangeCoordinates.py:479-492. -/
def rangeCoordinates.GPS.ned2ecef : Fn where
  params := [(N.ned, none), (N.origin, none)]
  body :=
   [.assign (.name N.llaOrigin) (.method (.name N.self) N.ecef2lla [.name N.origin] []),
    .assign (.name N.lat) (.call N.deg2rad [.index (.name N.llaOrigin) (.int 0)] []),
    .assign (.name N.lon) (.call N.deg2rad [.index (.name N.llaOrigin) (.int 1)] []),
    .assign (.name N.Rt2e) (.call N.array [.list [.list [.bin .mul (.neg (.call N.sin [.name N.lat] [])) (.call N.cos [.name N.lon] []), .neg (.call N.sin [.name N.lon] []), .bin .mul (.neg (.call N.cos [.name N.lat] [])) (.call N.cos [.name N.lon] [])], .list [.bin .mul (.neg (.call N.sin [.name N.lat] [])) (.call N.sin [.name N.lon] []), .call N.cos [.name N.lon] [], .bin .mul (.neg (.call N.cos [.name N.lat] [])) (.call N.sin [.name N.lon] [])], .list [.call N.cos [.name N.lat] [], .dec 0 0, .neg (.call N.sin [.name N.lat] [])]]] []),
    .ret (.call N.list [.bin .add (.call N.dot [.name N.Rt2e, .call N.array [.name N.ned] []] []) (.call N.array [.name N.origin] [])] [])]

/-- `rangeCoordinates.GPS.ned2pae`, /repo/opendis/RangeCoordinates.py:494-503. -/
def rangeCoordinates.GPS.ned2pae : Fn where
  params := [(N.ned, none)]
  body :=
   [.assign (.name N.p) (.call N.euclideanDistance [.name N.ned] []),
    .assign (.name N.alpha) (.call N.atan2 [.index (.name N.ned) (.int 1), .index (.name N.ned) (.int 0)] []),
    .assign (.name N.epsilon) (.call N.atan2 [.neg (.index (.name N.ned) (.int 2)), .call N.sqrt [.bin .add (.bin .pow (.index (.name N.ned) (.int 0)) (.int 2)) (.bin .pow (.index (.name N.ned) (.int 1)) (.int 2))] []] []),
    .ret (.list [.name N.p, .call N.rad2deg [.name N.alpha] [], .call N.rad2deg [.name N.epsilon] []])]

/-- `rangeCoordinates.GPS.rotate_3x3`, /repo/opendis/RangeCoordinates.py:506-530. -/
def rangeCoordinates.GPS.rotate_3x3 : Fn where
  params := [(N.theta, none), (N.normal_vec, none)]
  body :=
   [.assign (.name N.n_x) (.call N.array [.list [.list [.int 0, .neg (.index (.name N.normal_vec) (.int 2)), .index (.name N.normal_vec) (.int 1)], .list [.index (.name N.normal_vec) (.int 2), .int 0, .neg (.index (.name N.normal_vec) (.int 0))], .list [.neg (.index (.name N.normal_vec) (.int 1)), .index (.name N.normal_vec) (.int 0), .int 0]]] []),
    .assign (.name N.nnt) (.bin .mul (.name N.normal_vec) (.method (.name N.self) N.transpose [.name N.normal_vec] [])),
    .ret (.bin .add (.bin .add (.bin .mul (.bin .sub (.int 1) (.call N.cos [.name N.theta] [])) (.name N.nnt)) (.bin .mul (.call N.cos [.name N.theta] []) (.attr (.name N.self) N._IDENTITY_3X3))) (.bin .mul (.call N.sin [.name N.theta] []) (.name N.n_x)))]

/-- `rangeCoordinates.GPS.transpose`, /repo/opendis/RangeCoordinates.py:533-539. -/
def rangeCoordinates.GPS.transpose : Fn where
  params := [(N.arr, none)]
  body :=
   [.ret (.call N.array [.list [.list [.index (.name N.arr) (.int 0)], .list [.index (.name N.arr) (.int 1)], .list [.index (.name N.arr) (.int 2)]]] [])]

/-- `rangeCoordinates.GPS.utmLetterDesignator`, /repo/opendis/RangeCoordinates.py:542-564. -/
def rangeCoordinates.GPS.utmLetterDesignator : Fn where
  params := [(N.lat, none)]
  body :=
   [.ite (.cmp (.neg (.int 80)) [(.le, .name N.lat), (.lt, .neg (.int 72))])
      [.ret (.str "C")]
      [.ite (.cmp (.neg (.int 72)) [(.le, .name N.lat), (.lt, .neg (.int 64))])
         [.ret (.str "D")]
         [.ite (.cmp (.neg (.int 64)) [(.le, .name N.lat), (.lt, .neg (.int 56))])
            [.ret (.str "E")]
            [.ite (.cmp (.neg (.int 56)) [(.le, .name N.lat), (.lt, .neg (.int 48))])
               [.ret (.str "F")]
               [.ite (.cmp (.neg (.int 48)) [(.le, .name N.lat), (.lt, .neg (.int 40))])
                  [.ret (.str "G")]
                  [.ite (.cmp (.neg (.int 40)) [(.le, .name N.lat), (.lt, .neg (.int 32))])
                     [.ret (.str "H")]
                     [.ite (.cmp (.neg (.int 32)) [(.le, .name N.lat), (.lt, .neg (.int 24))])
                        [.ret (.str "J")]
                        [.ite (.cmp (.neg (.int 24)) [(.le, .name N.lat), (.lt, .neg (.int 16))])
                           [.ret (.str "K")]
                           [.ite (.cmp (.neg (.int 16)) [(.le, .name N.lat), (.lt, .neg (.int 8))])
                              [.ret (.str "L")]
                              [.ite (.cmp (.neg (.int 8)) [(.le, .name N.lat), (.lt, .int 0)])
                                 [.ret (.str "M")]
                                 [.ite (.cmp (.int 0) [(.le, .name N.lat), (.lt, .int 8)])
                                    [.ret (.str "N")]
                                    [.ite (.cmp (.int 8) [(.le, .name N.lat), (.lt, .int 16)])
                                       [.ret (.str "P")]
                                       [.ite (.cmp (.int 16) [(.le, .name N.lat), (.lt, .int 24)])
                                          [.ret (.str "Q")]
                                          [.ite (.cmp (.int 24) [(.le, .name N.lat), (.lt, .int 32)])
                                             [.ret (.str "R")]
                                             [.ite (.cmp (.int 32) [(.le, .name N.lat), (.lt, .int 40)])
                                                [.ret (.str "S")]
                                                [.ite (.cmp (.int 40) [(.le, .name N.lat), (.lt, .int 48)])
                                                   [.ret (.str "T")]
                                                   [.ite (.cmp (.int 48) [(.le, .name N.lat), (.lt, .int 56)])
                                                      [.ret (.str "U")]
                                                      [.ite (.cmp (.int 56) [(.le, .name N.lat), (.lt, .int 64)])
                                                         [.ret (.str "V")]
                                                         [.ite (.cmp (.int 64) [(.le, .name N.lat), (.lt, .int 72)])
                                                            [.ret (.str "W")]
                                                            [.ite (.cmp (.int 72) [(.le, .name N.lat), (.lt, .int 80)])
                                                               [.ret (.str "X")]
                                                               [.ret (.str "Z")]]]]]]]]]]]]]]]]]]]]]

/-- `class GPS`, /repo/opendis/RangeCoordinates.py:110-564. -/
def rangeCoordinates.GPS : Class where
  attrs :=
   [(N.wgs84, .call N.WGS84 [] []),
    (N._IDENTITY_3X3, .call N.identity [.int 3] [])]
  methods :=
   [(N.ecef2lla, rangeCoordinates.GPS.ecef2lla),
    (N.ecef2llarpy, rangeCoordinates.GPS.ecef2llarpy),
    (N.ecef2ned, rangeCoordinates.GPS.ecef2ned),
    (N.ecef2pae, rangeCoordinates.GPS.ecef2pae),
    (N.ecef2utm, rangeCoordinates.GPS.ecef2utm),
    (N.ecefvec2nedvec, rangeCoordinates.GPS.ecefvec2nedvec),
    (N.lla2ecef, rangeCoordinates.GPS.lla2ecef),
    (N.lla2gcc, rangeCoordinates.GPS.lla2gcc),
    (N.lla2utm, rangeCoordinates.GPS.lla2utm),
    (N.llarpy2ecef, rangeCoordinates.GPS.llarpy2ecef),
    (N.ned2ecef, rangeCoordinates.GPS.ned2ecef),
    (N.ned2pae, rangeCoordinates.GPS.ned2pae),
    (N.rotate_3x3, rangeCoordinates.GPS.rotate_3x3),
    (N.transpose, rangeCoordinates.GPS.transpose),
    (N.utmLetterDesignator, rangeCoordinates.GPS.utmLetterDesignator)]

/-- /repo/opendis/RangeCoordinates.py. -/
def rangeCoordinates : Module where
  functions :=
   [(N.deg2rad, rangeCoordinates.deg2rad),
    (N.rad2deg, rangeCoordinates.rad2deg),
    (N.euclideanDistance, rangeCoordinates.euclideanDistance)]
  classes :=
   [(N.WGS84, rangeCoordinates.WGS84),
    (N.GPS, rangeCoordinates.GPS)]
  imports := [(N.sqrt, .sqrt), (N.pi, .pi), (N.sin, .sin), (N.cos, .cos), (N.tan, .tan), (N.atan, .atan), (N.atan2, .atan2), (N.array, .array), (N.dot, .dot), (N.identity, .identity)]
  modules := []

/-- `deadReckoning._to_numpy`, /repo/opendis/DeadReckoning.py:40-42. -/
def deadReckoning._to_numpy : Fn where
  params := [(N.v, none)]
  body :=
   [.ret (.method (.name N.np) N.array [.name N.v, .name N.float] [N.dtype])]

/-- `deadReckoning.get_rotation_matrix`, /repo/opendis/DeadReckoning.py:44-84. -/
def deadReckoning.get_rotation_matrix : Fn where
  params := [(N.psi, none), (N.theta, none), (N.phi, none)]
  body :=
   [.assign (.name N.c_psi) (.method (.name N.math) N.cos [.name N.psi] []),
    .assign (.name N.s_psi) (.method (.name N.math) N.sin [.name N.psi] []),
    .assign (.name N.c_theta) (.method (.name N.math) N.cos [.name N.theta] []),
    .assign (.name N.s_theta) (.method (.name N.math) N.sin [.name N.theta] []),
    .assign (.name N.c_phi) (.method (.name N.math) N.cos [.name N.phi] []),
    .assign (.name N.s_phi) (.method (.name N.math) N.sin [.name N.phi] []),
    .assign (.name N.r11) (.bin .mul (.name N.c_psi) (.name N.c_theta)),
    .assign (.name N.r12) (.bin .sub (.bin .mul (.bin .mul (.name N.c_psi) (.name N.s_theta)) (.name N.s_phi)) (.bin .mul (.name N.s_psi) (.name N.c_phi))),
    .assign (.name N.r13) (.bin .add (.bin .mul (.bin .mul (.name N.c_psi) (.name N.s_theta)) (.name N.c_phi)) (.bin .mul (.name N.s_psi) (.name N.s_phi))),
    .assign (.name N.r21) (.bin .mul (.name N.s_psi) (.name N.c_theta)),
    .assign (.name N.r22) (.bin .add (.bin .mul (.bin .mul (.name N.s_psi) (.name N.s_theta)) (.name N.s_phi)) (.bin .mul (.name N.c_psi) (.name N.c_phi))),
    .assign (.name N.r23) (.bin .sub (.bin .mul (.bin .mul (.name N.s_psi) (.name N.s_theta)) (.name N.c_phi)) (.bin .mul (.name N.c_psi) (.name N.s_phi))),
    .assign (.name N.r31) (.neg (.name N.s_theta)),
    .assign (.name N.r32) (.bin .mul (.name N.c_theta) (.name N.s_phi)),
    .assign (.name N.r33) (.bin .mul (.name N.c_theta) (.name N.c_phi)),
    .ret (.method (.name N.np) N.array [.list [.list [.name N.r11, .name N.r12, .name N.r13], .list [.name N.r21, .name N.r22, .name N.r23], .list [.name N.r31, .name N.r32, .name N.r33]]] [])]

/-- `deadReckoning.get_angular_velocity_matrix`, /repo/opendis/DeadReckoning.py:86-101. -/
def deadReckoning.get_angular_velocity_matrix : Fn where
  params := [(N.omega, none)]
  body :=
   [.assign (.tuple [.name N.wx, .name N.wy, .name N.wz]) (.name N.omega),
    .ret (.method (.name N.np) N.array [.list [.list [.int 0, .neg (.name N.wz), .name N.wy], .list [.name N.wz, .int 0, .neg (.name N.wx)], .list [.neg (.name N.wy), .name N.wx, .int 0]]] [])]

/-- `deadReckoning.drm_static`, /repo/opendis/DeadReckoning.py:103-114. -/
def deadReckoning.drm_static : Fn where
  params := [(N.position, none), (N.orientation, none)]
  body :=
   [.ret (.tuple [.call N._to_numpy [.name N.position] [], .call N._to_numpy [.name N.orientation] []])]

/-- `deadReckoning.drm_fpw`, /repo/opendis/DeadReckoning.py:116-141. -/
def deadReckoning.drm_fpw : Fn where
  params := [(N.position, none), (N.velocity, none), (N.dt, none), (N.orientation, none)]
  body :=
   [.assign (.name N.pos) (.call N._to_numpy [.name N.position] []),
    .assign (.name N.vel) (.call N._to_numpy [.name N.velocity] []),
    .assign (.name N.new_position) (.bin .add (.name N.pos) (.bin .mul (.name N.vel) (.name N.dt))),
    .ret (.tuple [.name N.new_position, .call N._to_numpy [.name N.orientation] []])]

/-- `deadReckoning.drm_rpw`, /repo/opendis/DeadReckoning.py:143-207. -/
def deadReckoning.drm_rpw : Fn where
  params := [(N.position, none), (N.velocity, none), (N.dt, none), (N.orientation, none), (N.angular_velocity, none)]
  body :=
   [.assign (.name N.pos) (.call N._to_numpy [.name N.position] []),
    .assign (.name N.vel) (.call N._to_numpy [.name N.velocity] []),
    .assign (.name N.ori) (.call N._to_numpy [.name N.orientation] []),
    .assign (.name N.ang_vel) (.call N._to_numpy [.name N.angular_velocity] []),
    .assign (.name N.new_position) (.bin .add (.name N.pos) (.bin .mul (.name N.vel) (.name N.dt))),
    .assign (.tuple [.name N.psi, .name N.theta, .name N.phi]) (.name N.ori),
    .assign (.tuple [.name N.p, .name N.q, .name N.r]) (.name N.ang_vel),
    .assign (.name N.c_phi) (.method (.name N.math) N.cos [.name N.phi] []),
    .assign (.name N.s_phi) (.method (.name N.math) N.sin [.name N.phi] []),
    .assign (.name N.c_theta) (.method (.name N.math) N.cos [.name N.theta] []),
    .assign (.name N.t_theta) (.method (.name N.math) N.tan [.name N.theta] []),
    .ite (.cmp (.call N.abs [.name N.c_theta] []) [(.lt, .dec 1 (-6))])
      [.assign (.name N.d_phi) (.name N.p),
       .assign (.name N.d_theta) (.bin .sub (.bin .mul (.name N.q) (.name N.c_phi)) (.bin .mul (.name N.r) (.name N.s_phi))),
       .assign (.name N.d_psi) (.int 0)]
      [.assign (.name N.d_phi) (.bin .add (.name N.p) (.bin .mul (.bin .add (.bin .mul (.name N.q) (.name N.s_phi)) (.bin .mul (.name N.r) (.name N.c_phi))) (.name N.t_theta))),
       .assign (.name N.d_theta) (.bin .sub (.bin .mul (.name N.q) (.name N.c_phi)) (.bin .mul (.name N.r) (.name N.s_phi))),
       .assign (.name N.d_psi) (.bin .div (.bin .add (.bin .mul (.name N.q) (.name N.s_phi)) (.bin .mul (.name N.r) (.name N.c_phi))) (.name N.c_theta))],
    .assign (.name N.new_orientation) (.method (.name N.np) N.array [.list [.bin .add (.name N.psi) (.bin .mul (.name N.d_psi) (.name N.dt)), .bin .add (.name N.theta) (.bin .mul (.name N.d_theta) (.name N.dt)), .bin .add (.name N.phi) (.bin .mul (.name N.d_phi) (.name N.dt))]] []),
    .ret (.tuple [.name N.new_position, .name N.new_orientation])]

/-- `deadReckoning.drm_rvw`, /repo/opendis/DeadReckoning.py:209-237. -/
def deadReckoning.drm_rvw : Fn where
  params := [(N.position, none), (N.velocity, none), (N.acceleration, none), (N.dt, none), (N.orientation, none), (N.angular_velocity, none)]
  body :=
   [.assign (.name N.pos) (.call N._to_numpy [.name N.position] []),
    .assign (.name N.vel) (.call N._to_numpy [.name N.velocity] []),
    .assign (.name N.acc) (.call N._to_numpy [.name N.acceleration] []),
    .assign (.name N.new_position) (.bin .add (.bin .add (.name N.pos) (.bin .mul (.name N.vel) (.name N.dt))) (.bin .mul (.bin .mul (.dec 5 (-1)) (.name N.acc)) (.bin .pow (.name N.dt) (.int 2)))),
    .assign (.tuple [.name N.«_», .name N.new_orientation]) (.call N.drm_rpw [.name N.position, .name N.velocity, .name N.dt, .name N.orientation, .name N.angular_velocity] []),
    .ret (.tuple [.name N.new_position, .name N.new_orientation])]

/-- `deadReckoning.drm_fvw`, /repo/opendis/DeadReckoning.py:239-262. -/
def deadReckoning.drm_fvw : Fn where
  params := [(N.position, none), (N.velocity, none), (N.acceleration, none), (N.dt, none), (N.orientation, none)]
  body :=
   [.assign (.name N.pos) (.call N._to_numpy [.name N.position] []),
    .assign (.name N.vel) (.call N._to_numpy [.name N.velocity] []),
    .assign (.name N.acc) (.call N._to_numpy [.name N.acceleration] []),
    .assign (.name N.ori) (.call N._to_numpy [.name N.orientation] []),
    .assign (.name N.new_position) (.bin .add (.bin .add (.name N.pos) (.bin .mul (.name N.vel) (.name N.dt))) (.bin .mul (.bin .mul (.dec 5 (-1)) (.name N.acc)) (.bin .pow (.name N.dt) (.int 2)))),
    .ret (.tuple [.name N.new_position, .name N.ori])]

/-- `deadReckoning.drm_fpb`, /repo/opendis/DeadReckoning.py:264-289. -/
def deadReckoning.drm_fpb : Fn where
  params := [(N.position, none), (N.velocity, none), (N.dt, none), (N.orientation, none)]
  body :=
   [.assign (.name N.pos) (.call N._to_numpy [.name N.position] []),
    .assign (.name N.vel) (.call N._to_numpy [.name N.velocity] []),
    .assign (.name N.ori) (.call N._to_numpy [.name N.orientation] []),
    .assign (.name N.R_wb) (.call N.get_rotation_matrix [.star (.name N.ori)] []),
    .assign (.name N.velocity_world) (.bin .matmul (.name N.R_wb) (.name N.vel)),
    .assign (.name N.new_position) (.bin .add (.name N.pos) (.bin .mul (.name N.velocity_world) (.name N.dt))),
    .ret (.tuple [.name N.new_position, .name N.ori])]

/-- `deadReckoning.drm_rpb`, /repo/opendis/DeadReckoning.py:291-325. -/
def deadReckoning.drm_rpb : Fn where
  params := [(N.position, none), (N.velocity, none), (N.dt, none), (N.orientation, none), (N.angular_velocity, none)]
  body :=
   [.assign (.name N.pos) (.call N._to_numpy [.name N.position] []),
    .assign (.name N.vel) (.call N._to_numpy [.name N.velocity] []),
    .assign (.name N.ori) (.call N._to_numpy [.name N.orientation] []),
    .assign (.tuple [.name N.«_», .name N.new_orientation]) (.call N.drm_rpw [.name N.position, .method (.name N.np) N.zeros [.int 3] [], .name N.dt, .name N.orientation, .name N.angular_velocity] []),
    .assign (.name N.R_wb) (.call N.get_rotation_matrix [.star (.name N.ori)] []),
    .assign (.name N.velocity_world) (.bin .matmul (.name N.R_wb) (.name N.vel)),
    .assign (.name N.new_position) (.bin .add (.name N.pos) (.bin .mul (.name N.velocity_world) (.name N.dt))),
    .ret (.tuple [.name N.new_position, .name N.new_orientation])]

/-- `deadReckoning.drm_rvb`, /repo/opendis/DeadReckoning.py:327-361. -/
def deadReckoning.drm_rvb : Fn where
  params := [(N.position, none), (N.velocity, none), (N.acceleration, none), (N.dt, none), (N.orientation, none), (N.angular_velocity, none)]
  body :=
   [.assign (.name N.pos) (.call N._to_numpy [.name N.position] []),
    .assign (.name N.vel) (.call N._to_numpy [.name N.velocity] []),
    .assign (.name N.acc) (.call N._to_numpy [.name N.acceleration] []),
    .assign (.name N.ori) (.call N._to_numpy [.name N.orientation] []),
    .assign (.tuple [.name N.«_», .name N.new_orientation]) (.call N.drm_rpw [.name N.position, .method (.name N.np) N.zeros [.int 3] [], .name N.dt, .name N.orientation, .name N.angular_velocity] []),
    .assign (.name N.R_wb) (.call N.get_rotation_matrix [.star (.name N.ori)] []),
    .assign (.name N.displacement_body) (.bin .add (.bin .mul (.name N.vel) (.name N.dt)) (.bin .mul (.bin .mul (.dec 5 (-1)) (.name N.acc)) (.bin .pow (.name N.dt) (.int 2)))),
    .assign (.name N.displacement_world) (.bin .matmul (.name N.R_wb) (.name N.displacement_body)),
    .assign (.name N.new_position) (.bin .add (.name N.pos) (.name N.displacement_world)),
    .ret (.tuple [.name N.new_position, .name N.new_orientation])]

/-- `deadReckoning.drm_fvb`, /repo/opendis/DeadReckoning.py:363-391. -/
def deadReckoning.drm_fvb : Fn where
  params := [(N.position, none), (N.velocity, none), (N.acceleration, none), (N.dt, none), (N.orientation, none)]
  body :=
   [.assign (.name N.pos) (.call N._to_numpy [.name N.position] []),
    .assign (.name N.vel) (.call N._to_numpy [.name N.velocity] []),
    .assign (.name N.acc) (.call N._to_numpy [.name N.acceleration] []),
    .assign (.name N.ori) (.call N._to_numpy [.name N.orientation] []),
    .assign (.name N.R_wb) (.call N.get_rotation_matrix [.star (.name N.ori)] []),
    .assign (.name N.displacement_body) (.bin .add (.bin .mul (.name N.vel) (.name N.dt)) (.bin .mul (.bin .mul (.dec 5 (-1)) (.name N.acc)) (.bin .pow (.name N.dt) (.int 2)))),
    .assign (.name N.displacement_world) (.bin .matmul (.name N.R_wb) (.name N.displacement_body)),
    .assign (.name N.new_position) (.bin .add (.name N.pos) (.name N.displacement_world)),
    .ret (.tuple [.name N.new_position, .name N.ori])]

/-- /repo/opendis/DeadReckoning.py. -/
def deadReckoning : Module where
  functions :=
   [(N._to_numpy, deadReckoning._to_numpy),
    (N.get_rotation_matrix, deadReckoning.get_rotation_matrix),
    (N.get_angular_velocity_matrix, deadReckoning.get_angular_velocity_matrix),
    (N.drm_static, deadReckoning.drm_static),
    (N.drm_fpw, deadReckoning.drm_fpw),
    (N.drm_rpw, deadReckoning.drm_rpw),
    (N.drm_rvw, deadReckoning.drm_rvw),
    (N.drm_fvw, deadReckoning.drm_fvw),
    (N.drm_fpb, deadReckoning.drm_fpb),
    (N.drm_rpb, deadReckoning.drm_rpb),
    (N.drm_rvb, deadReckoning.drm_rvb),
    (N.drm_fvb, deadReckoning.drm_fvb)]
  classes :=
   []
  imports := []
  modules := [(N.math, math), (N.np, numpy)]

end Dis.Calc
