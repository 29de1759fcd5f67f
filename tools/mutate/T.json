[
 {
  "id": "T1",
  "definition": "Verif/Source/Calc.lean",
  "claim": "the numerical module does what its text says (C78)",
  "expect": [
   "C78"
  ],
  "edits": [
   {
    "file": "Verif/Source/Calc.lean",
    "within": "rangeCoordinates.deg2rad",
    "old": "   [.ret (.bin .div (.bin .mul (.name N.deg) (.name N.pi)) (.int 180))]",
    "new": "   [.ret (.bin .mul (.bin .mul (.name N.deg) (.name N.pi)) (.int 180))]",
    "descr": ".bin .div -> .bin .mul in: [.ret (.bin .div (.bin .mul (.name N.deg) (.name N.pi)) (.int 180))]"
   },
   {
    "file": "Verif/Source/Calc.lean",
    "within": "rangeCoordinates.rad2deg",
    "old": "   [.ret (.bin .div (.bin .mul (.name N.rad) (.int 180)) (.name N.pi))]",
    "new": "   [.ret (.bin .div (.bin .div (.name N.rad) (.int 180)) (.name N.pi))]",
    "descr": ".bin .mul -> .bin .div in: [.ret (.bin .div (.bin .mul (.name N.rad) (.int 180)) (.name N.pi))]"
   },
   {
    "file": "Verif/Source/Calc.lean",
    "within": "rangeCoordinates.euclideanDistance",
    "old": "         [.augAdd N.total (.bin .pow (.bin .sub (.index (.name N.data) (.name N.index)) (.index (.name N.dataRef) (.name N.index))) (.int 2))]],",
    "new": "         [.augAdd N.total (.bin .pow (.bin .sub (.index (.name N.data) (.name N.index)) (.index (.name N.dataRef) (.name N.index))) (.int 3))]],",
    "descr": "(.int 2) -> (.int 3) in: [.augAdd N.total (.bin .pow (.bin .sub (.index (.name N.data) (.name N.index)) (.index (.name N.dataRef) (.name N.index)"
   },
   {
    "file": "Verif/Source/Calc.lean",
    "within": "rangeCoordinates.WGS84.g0",
    "old": "   [.ret (.bin .div (.bin .mul (.dec 97803267715 (-10)) (.bin .add (.int 1) (.bin .mul (.dec 1931851353 (-12)) (.bin .pow (.call N.sin [.name N.L] []) (.int 2))))) (.call N.sqrt [.bin .sub (.int 1) (.bin .mul (.dec 66943800229 (-13)) (.bin .pow (.call N.sin [.name N.L] []) (.int 2)))] []))]",
    "new": "   [.ret (.bin .div (.bin .mul (.dec 97803267715 (-10)) (.bin .sub (.int 1) (.bin .mul (.dec 1931851353 (-12)) (.bin .pow (.call N.sin [.name N.L] []) (.int 2))))) (.call N.sqrt [.bin .sub (.int 1) (.bin .mul (.dec 66943800229 (-13)) (.bin .pow (.call N.sin [.name N.L] []) (.int 2)))] []))]",
    "descr": ".bin .add -> .bin .sub in: [.ret (.bin .div (.bin .mul (.dec 97803267715 (-10)) (.bin .add (.int 1) (.bin .mul (.dec 1931851353 (-12)) (.bin .pow ("
   },
   {
    "file": "Verif/Source/Calc.lean",
    "within": "rangeCoordinates.GPS.ecef2lla",
    "old": "    .assign (.name N.z) (.index (.name N.ecef) (.int 2)),\n",
    "new": "",
    "descr": "dropped: .assign (.name N.z) (.index (.name N.ecef) (.int 2)),"
   },
   {
    "file": "Verif/Source/Calc.lean",
    "within": "rangeCoordinates.GPS.ecef2llarpy",
    "old": "    .assign (.name N.X0) (.index (.name N.a0) (.int 0)),\n    .assign (.name N.Y0) (.index (.name N.a0) (.int 1)),\n",
    "new": "    .assign (.name N.Y0) (.index (.name N.a0) (.int 1)),\n    .assign (.name N.X0) (.index (.name N.a0) (.int 0)),\n",
    "descr": "swapped: .assign (.name N.X0) (.index (.name N.a0) (.int 0)), / .assign (.name N.Y0) (.index (.name N.a0) (.int 1)),"
   },
   {
    "file": "Verif/Source/Calc.lean",
    "within": "rangeCoordinates.GPS.ecef2ned",
    "old": "    .assign (.name N.lat) (.call N.deg2rad [.index (.name N.llaOrigin) (.int 0)] []),\n",
    "new": "",
    "descr": "dropped: .assign (.name N.lat) (.call N.deg2rad [.index (.name N.llaOrigin) (.int 0)] []),"
   },
   {
    "file": "Verif/Source/Calc.lean",
    "within": "rangeCoordinates.GPS.ecef2utm",
    "old": "    .assign (.tuple [.name N.utm, .name N.info]) (.method (.name N.self) N.lla2utm [.name N.lla] []),\n",
    "new": "",
    "descr": "dropped: .assign (.tuple [.name N.utm, .name N.info]) (.method (.name N.self) N.lla2utm [.name N.lla] []),"
   },
   {
    "file": "Verif/Source/Calc.lean",
    "within": "rangeCoordinates.GPS.ecefvec2nedvec",
    "old": "   [.ret (.call N.array [.list [.list [.bin .mul (.neg (.call N.sin [.name N.lat] [])) (.call N.cos [.name N.lon] []), .bin .mul (.neg (.call N.sin [.name N.lat] [])) (.call N.sin [.name N.lon] []), .call N.cos [.name N.lat] []], .list [.neg (.call N.sin [.name N.lon] []), .call N.cos [.name N.lon] [], .int 0], .list [.bin .mul (.neg (.call N.cos [.name N.lat] [])) (.call N.cos [.name N.lon] []), .bin .mul (.neg (.call N.cos [.name N.lat] [])) (.call N.sin [.name N.lon] []), .neg (.call N.sin [.name N.lat] [])]]] [])]",
    "new": "   [.ret (.call N.array [.list [.list [.bin .mul (.neg (.call N.sin [.name N.lat] [])) (.call N.cos [.name N.lon] []), .bin .mul (.neg (.call N.sin [.name N.lat] [])) (.call N.sin [.name N.lon] []), .call N.cos [.name N.lat] []], .list [.neg (.call N.sin [.name N.lon] []), .call N.cos [.name N.lon] [], .int 0], .list [.bin .mul (.neg (.call N.sin [.name N.lat] [])) (.call N.cos [.name N.lon] []), .bin .mul (.neg (.call N.cos [.name N.lat] [])) (.call N.sin [.name N.lon] []), .neg (.call N.sin [.name N.lat] [])]]] [])]",
    "descr": "N.cos -> N.sin in: [.ret (.call N.array [.list [.list [.bin .mul (.neg (.call N.sin [.name N.lat] [])) (.call N.cos [.name N.lon] []), .bin"
   },
   {
    "file": "Verif/Source/Calc.lean",
    "within": "rangeCoordinates.GPS.lla2ecef",
    "old": "    .assign (.name N.lon) (.call N.deg2rad [.index (.name N.lla) (.int 1)] []),\n",
    "new": "",
    "descr": "dropped: .assign (.name N.lon) (.call N.deg2rad [.index (.name N.lla) (.int 1)] []),"
   },
   {
    "file": "Verif/Source/Calc.lean",
    "within": "rangeCoordinates.GPS.lla2gcc",
    "old": "    .ret (.tuple [.bin .sub (.name N.x) (.name N.x0), .bin .sub (.name N.y) (.name N.y0), .bin .sub (.name N.z) (.name N.z0)])]",
    "new": "    .ret (.tuple [.bin .add (.name N.x) (.name N.x0), .bin .sub (.name N.y) (.name N.y0), .bin .sub (.name N.z) (.name N.z0)])]",
    "descr": ".bin .sub -> .bin .add in: .ret (.tuple [.bin .sub (.name N.x) (.name N.x0), .bin .sub (.name N.y) (.name N.y0), .bin .sub (.name N.z) (.name N.z0)"
   },
   {
    "file": "Verif/Source/Calc.lean",
    "within": "rangeCoordinates.GPS.lla2utm",
    "old": "    .assign (.name N.k0) (.dec 9996 (-4)),\n    .assign (.name N.eSquared) (.bin .pow (.attr (.attr (.name N.self) N.wgs84) N.e) (.int 2)),\n",
    "new": "    .assign (.name N.eSquared) (.bin .pow (.attr (.attr (.name N.self) N.wgs84) N.e) (.int 2)),\n    .assign (.name N.k0) (.dec 9996 (-4)),\n",
    "descr": "swapped: .assign (.name N.k0) (.dec 9996 (-4)), / .assign (.name N.eSquared) (.bin .pow (.attr (.attr (.name N.self) N.wgs84) N.e) (.int 2)),"
   },
   {
    "file": "Verif/Source/Calc.lean",
    "within": "rangeCoordinates.GPS.llarpy2ecef",
    "old": "    .assign (.name N.x0) (.index (.name N.a0) (.int 0)),",
    "new": "    .assign (.name N.x0) (.index (.name N.a0) (.int 1)),",
    "descr": "(.int 0) -> (.int 1) in: .assign (.name N.x0) (.index (.name N.a0) (.int 0)),"
   },
   {
    "file": "Verif/Source/Calc.lean",
    "within": "rangeCoordinates.GPS.ned2ecef",
    "old": "    .assign (.name N.Rt2e) (.call N.array [.list [.list [.bin .mul (.neg (.call N.sin [.name N.lat] [])) (.call N.cos [.name N.lon] []), .neg (.call N.sin [.name N.lon] []), .bin .mul (.neg (.call N.cos [.name N.lat] [])) (.call N.cos [.name N.lon] [])], .list [.bin .mul (.neg (.call N.sin [.name N.lat] [])) (.call N.sin [.name N.lon] []), .call N.cos [.name N.lon] [], .bin .mul (.neg (.call N.cos [.name N.lat] [])) (.call N.sin [.name N.lon] [])], .list [.call N.cos [.name N.lat] [], .dec 0 0, .neg (.call N.sin [.name N.lat] [])]]] []),",
    "new": "    .assign (.name N.Rt2e) (.call N.array [.list [.list [.bin .mul (.neg (.call N.sin [.name N.lat] [])) (.call N.cos [.name N.lon] []), .neg (.call N.sin [.name N.lon] []), .bin .mul (.neg (.call N.cos [.name N.lat] [])) (.call N.cos [.name N.lon] [])], .list [.bin .mul (.neg (.call N.cos [.name N.lat] [])) (.call N.sin [.name N.lon] []), .call N.cos [.name N.lon] [], .bin .mul (.neg (.call N.cos [.name N.lat] [])) (.call N.sin [.name N.lon] [])], .list [.call N.cos [.name N.lat] [], .dec 0 0, .neg (.call N.sin [.name N.lat] [])]]] []),",
    "descr": "N.sin -> N.cos in: .assign (.name N.Rt2e) (.call N.array [.list [.list [.bin .mul (.neg (.call N.sin [.name N.lat] [])) (.call N.cos [.name"
   },
   {
    "file": "Verif/Source/Calc.lean",
    "within": "rangeCoordinates.GPS.ned2pae",
    "old": "    .assign (.name N.alpha) (.call N.atan2 [.index (.name N.ned) (.int 1), .index (.name N.ned) (.int 0)] []),\n",
    "new": "",
    "descr": "dropped: .assign (.name N.alpha) (.call N.atan2 [.index (.name N.ned) (.int 1), .index (.name N.ned) (.int 0)] []),"
   },
   {
    "file": "Verif/Source/Calc.lean",
    "within": "rangeCoordinates.GPS.rotate_3x3",
    "old": "    .assign (.name N.nnt) (.bin .mul (.name N.normal_vec) (.method (.name N.self) N.transpose [.name N.normal_vec] [])),\n",
    "new": "",
    "descr": "dropped: .assign (.name N.nnt) (.bin .mul (.name N.normal_vec) (.method (.name N.self) N.transpose [.name N.normal_vec] [])),"
   },
   {
    "file": "Verif/Source/Calc.lean",
    "within": "rangeCoordinates.GPS.transpose",
    "old": "   [.ret (.call N.array [.list [.list [.index (.name N.arr) (.int 0)], .list [.index (.name N.arr) (.int 1)], .list [.index (.name N.arr) (.int 2)]]] [])]",
    "new": "   [.ret (.call N.array [.list [.list [.index (.name N.arr) (.int 1)], .list [.index (.name N.arr) (.int 1)], .list [.index (.name N.arr) (.int 2)]]] [])]",
    "descr": "(.int 0) -> (.int 1) in: [.ret (.call N.array [.list [.list [.index (.name N.arr) (.int 0)], .list [.index (.name N.arr) (.int 1)], .list [.index"
   },
   {
    "file": "Verif/Source/Calc.lean",
    "within": "rangeCoordinates.GPS.utmLetterDesignator",
    "old": "                        [.ite (.cmp (.neg (.int 24)) [(.le, .name N.lat), (.lt, .neg (.int 16))])",
    "new": "                        [.ite (.cmp (.neg (.int 24)) [(.le, .name N.lat), (.lt, (.int 16))])",
    "descr": ".neg ->  in: [.ite (.cmp (.neg (.int 24)) [(.le, .name N.lat), (.lt, .neg (.int 16))])"
   },
   {
    "file": "Verif/Source/Calc.lean",
    "within": "deadReckoning.get_rotation_matrix",
    "old": "    .assign (.name N.r12) (.bin .sub (.bin .mul (.bin .mul (.name N.c_psi) (.name N.s_theta)) (.name N.s_phi)) (.bin .mul (.name N.s_psi) (.name N.c_phi))),",
    "new": "    .assign (.name N.r12) (.bin .sub (.bin .div (.bin .mul (.name N.c_psi) (.name N.s_theta)) (.name N.s_phi)) (.bin .mul (.name N.s_psi) (.name N.c_phi))),",
    "descr": ".bin .mul -> .bin .div in: .assign (.name N.r12) (.bin .sub (.bin .mul (.bin .mul (.name N.c_psi) (.name N.s_theta)) (.name N.s_phi)) (.bin .mul (."
   },
   {
    "file": "Verif/Source/Calc.lean",
    "within": "deadReckoning.get_angular_velocity_matrix",
    "old": "    .ret (.method (.name N.np) N.array [.list [.list [.int 0, .neg (.name N.wz), .name N.wy], .list [.name N.wz, .int 0, .neg (.name N.wx)], .list [.neg (.name N.wy), .name N.wx, .int 0]]] [])]",
    "new": "    .ret (.method (.name N.np) N.array [.list [.list [.int 0, (.name N.wz), .name N.wy], .list [.name N.wz, .int 0, .neg (.name N.wx)], .list [.neg (.name N.wy), .name N.wx, .int 0]]] [])]",
    "descr": ".neg ->  in: .ret (.method (.name N.np) N.array [.list [.list [.int 0, .neg (.name N.wz), .name N.wy], .list [.name N.wz, .int 0, .ne"
   },
   {
    "file": "Verif/Source/Calc.lean",
    "within": "deadReckoning.drm_fpw",
    "old": "    .assign (.name N.new_position) (.bin .add (.name N.pos) (.bin .mul (.name N.vel) (.name N.dt))),",
    "new": "    .assign (.name N.new_position) (.bin .add (.name N.pos) (.bin .div (.name N.vel) (.name N.dt))),",
    "descr": ".bin .mul -> .bin .div in: .assign (.name N.new_position) (.bin .add (.name N.pos) (.bin .mul (.name N.vel) (.name N.dt))),"
   },
   {
    "file": "Verif/Source/Calc.lean",
    "within": "deadReckoning.drm_rpw",
    "old": "    .assign (.name N.ori) (.call N._to_numpy [.name N.orientation] []),\n",
    "new": "",
    "descr": "dropped: .assign (.name N.ori) (.call N._to_numpy [.name N.orientation] []),"
   },
   {
    "file": "Verif/Source/Calc.lean",
    "within": "deadReckoning.drm_rvw",
    "old": "    .assign (.name N.new_position) (.bin .add (.bin .add (.name N.pos) (.bin .mul (.name N.vel) (.name N.dt))) (.bin .mul (.bin .mul (.dec 5 (-1)) (.name N.acc)) (.bin .pow (.name N.dt) (.int 2)))),",
    "new": "    .assign (.name N.new_position) (.bin .add (.bin .add (.name N.pos) (.bin .mul (.name N.vel) (.name N.dt))) (.bin .div (.bin .mul (.dec 5 (-1)) (.name N.acc)) (.bin .pow (.name N.dt) (.int 2)))),",
    "descr": ".bin .mul -> .bin .div in: .assign (.name N.new_position) (.bin .add (.bin .add (.name N.pos) (.bin .mul (.name N.vel) (.name N.dt))) (.bin .mul (."
   },
   {
    "file": "Verif/Source/Calc.lean",
    "within": "deadReckoning.drm_fvw",
    "old": "    .assign (.name N.new_position) (.bin .add (.bin .add (.name N.pos) (.bin .mul (.name N.vel) (.name N.dt))) (.bin .mul (.bin .mul (.dec 5 (-1)) (.name N.acc)) (.bin .pow (.name N.dt) (.int 2)))),",
    "new": "    .assign (.name N.new_position) (.bin .add (.bin .add (.name N.pos) (.bin .div (.name N.vel) (.name N.dt))) (.bin .mul (.bin .mul (.dec 5 (-1)) (.name N.acc)) (.bin .pow (.name N.dt) (.int 2)))),",
    "descr": ".bin .mul -> .bin .div in: .assign (.name N.new_position) (.bin .add (.bin .add (.name N.pos) (.bin .mul (.name N.vel) (.name N.dt))) (.bin .mul (."
   },
   {
    "file": "Verif/Source/Calc.lean",
    "within": "deadReckoning.drm_fpb",
    "old": "    .assign (.name N.new_position) (.bin .add (.name N.pos) (.bin .mul (.name N.velocity_world) (.name N.dt))),",
    "new": "    .assign (.name N.new_position) (.bin .add (.name N.pos) (.bin .div (.name N.velocity_world) (.name N.dt))),",
    "descr": ".bin .mul -> .bin .div in: .assign (.name N.new_position) (.bin .add (.name N.pos) (.bin .mul (.name N.velocity_world) (.name N.dt))),"
   },
   {
    "file": "Verif/Source/Calc.lean",
    "within": "deadReckoning.drm_rpb",
    "old": "    .assign (.name N.ori) (.call N._to_numpy [.name N.orientation] []),\n",
    "new": "",
    "descr": "dropped: .assign (.name N.ori) (.call N._to_numpy [.name N.orientation] []),"
   },
   {
    "file": "Verif/Source/Calc.lean",
    "within": "deadReckoning.drm_rvb",
    "old": "    .assign (.name N.R_wb) (.call N.get_rotation_matrix [.star (.name N.ori)] []),\n    .assign (.name N.displacement_body) (.bin .add (.bin .mul (.name N.vel) (.name N.dt)) (.bin .mul (.bin .mul (.dec 5 (-1)) (.name N.acc)) (.bin .pow (.name N.dt) (.int 2)))),\n",
    "new": "    .assign (.name N.displacement_body) (.bin .add (.bin .mul (.name N.vel) (.name N.dt)) (.bin .mul (.bin .mul (.dec 5 (-1)) (.name N.acc)) (.bin .pow (.name N.dt) (.int 2)))),\n    .assign (.name N.R_wb) (.call N.get_rotation_matrix [.star (.name N.ori)] []),\n",
    "descr": "swapped: .assign (.name N.R_wb) (.call N.get_rotation_matrix [.star (.name N.ori)] []), / .assign (.name N.displacement_body) (.bin .add (.bin .mul (.name N.vel) (.name N.dt)) (.bin .mul (.bin .mul (.dec 5 (-1)) (.name N.acc)) (.bin .pow (.name N.dt) (.int 2)))),"
   },
   {
    "file": "Verif/Source/Calc.lean",
    "within": "deadReckoning.drm_fvb",
    "old": "    .assign (.name N.displacement_body) (.bin .add (.bin .mul (.name N.vel) (.name N.dt)) (.bin .mul (.bin .mul (.dec 5 (-1)) (.name N.acc)) (.bin .pow (.name N.dt) (.int 2)))),",
    "new": "    .assign (.name N.displacement_body) (.bin .add (.bin .div (.name N.vel) (.name N.dt)) (.bin .mul (.bin .mul (.dec 5 (-1)) (.name N.acc)) (.bin .pow (.name N.dt) (.int 2)))),",
    "descr": ".bin .mul -> .bin .div in: .assign (.name N.displacement_body) (.bin .add (.bin .mul (.name N.vel) (.name N.dt)) (.bin .mul (.bin .mul (.dec 5 (-1)"
   }
  ]
 },
 {
  "id": "T2",
  "definition": "Verif/Source/Calc.lean",
  "claim": "the numerical module does what its text says (C78)",
  "expect": [
   "C78"
  ],
  "edits": [
   {
    "file": "Verif/Source/Calc.lean",
    "within": "rangeCoordinates.deg2rad",
    "old": "   [.ret (.bin .div (.bin .mul (.name N.deg) (.name N.pi)) (.int 180))]",
    "new": "   [.ret (.bin .mul (.bin .mul (.name N.deg) (.name N.pi)) (.int 180))]",
    "descr": ".bin .div -> .bin .mul in: [.ret (.bin .div (.bin .mul (.name N.deg) (.name N.pi)) (.int 180))]"
   },
   {
    "file": "Verif/Source/Calc.lean",
    "within": "rangeCoordinates.rad2deg",
    "old": "   [.ret (.bin .div (.bin .mul (.name N.rad) (.int 180)) (.name N.pi))]",
    "new": "   [.ret (.bin .mul (.bin .mul (.name N.rad) (.int 180)) (.name N.pi))]",
    "descr": ".bin .div -> .bin .mul in: [.ret (.bin .div (.bin .mul (.name N.rad) (.int 180)) (.name N.pi))]"
   },
   {
    "file": "Verif/Source/Calc.lean",
    "within": "rangeCoordinates.euclideanDistance",
    "old": "         [.augAdd N.total (.bin .pow (.bin .sub (.index (.name N.data) (.name N.index)) (.index (.name N.dataRef) (.name N.index))) (.int 2))]],",
    "new": "         [.augAdd N.total (.bin .pow (.bin .add (.index (.name N.data) (.name N.index)) (.index (.name N.dataRef) (.name N.index))) (.int 2))]],",
    "descr": ".bin .sub -> .bin .add in: [.augAdd N.total (.bin .pow (.bin .sub (.index (.name N.data) (.name N.index)) (.index (.name N.dataRef) (.name N.index)"
   },
   {
    "file": "Verif/Source/Calc.lean",
    "within": "rangeCoordinates.WGS84.g0",
    "old": "   [.ret (.bin .div (.bin .mul (.dec 97803267715 (-10)) (.bin .add (.int 1) (.bin .mul (.dec 1931851353 (-12)) (.bin .pow (.call N.sin [.name N.L] []) (.int 2))))) (.call N.sqrt [.bin .sub (.int 1) (.bin .mul (.dec 66943800229 (-13)) (.bin .pow (.call N.sin [.name N.L] []) (.int 2)))] []))]",
    "new": "   [.ret (.bin .div (.bin .mul (.dec 97803267715 (-10)) (.bin .add (.int 1) (.bin .mul (.dec 1931851353 (-12)) (.bin .pow (.call N.sin [.name N.L] []) (.int 2))))) (.call N.sqrt [.bin .add (.int 1) (.bin .mul (.dec 66943800229 (-13)) (.bin .pow (.call N.sin [.name N.L] []) (.int 2)))] []))]",
    "descr": ".bin .sub -> .bin .add in: [.ret (.bin .div (.bin .mul (.dec 97803267715 (-10)) (.bin .add (.int 1) (.bin .mul (.dec 1931851353 (-12)) (.bin .pow ("
   },
   {
    "file": "Verif/Source/Calc.lean",
    "within": "rangeCoordinates.GPS.ecef2lla",
    "old": "    .assign (.name N.lon) (.call N.atan2 [.name N.y, .name N.x] []),\n    .assign (.name N.alt) (.int 0),\n",
    "new": "    .assign (.name N.alt) (.int 0),\n    .assign (.name N.lon) (.call N.atan2 [.name N.y, .name N.x] []),\n",
    "descr": "swapped: .assign (.name N.lon) (.call N.atan2 [.name N.y, .name N.x] []), / .assign (.name N.alt) (.int 0),"
   },
   {
    "file": "Verif/Source/Calc.lean",
    "within": "rangeCoordinates.GPS.ecef2llarpy",
    "old": "    .assign (.name N.a0) (.method (.name N.self) N.ecefvec2nedvec [.call N.deg2rad [.name N.lat] [], .call N.deg2rad [.name N.lon] []] []),\n",
    "new": "",
    "descr": "dropped: .assign (.name N.a0) (.method (.name N.self) N.ecefvec2nedvec [.call N.deg2rad [.name N.lat] [], .call N.deg2rad [.name N.lon] []] []),"
   },
   {
    "file": "Verif/Source/Calc.lean",
    "within": "rangeCoordinates.GPS.ecef2ned",
    "old": "    .assign (.name N.Re2t) (.call N.array [.list [.list [.bin .mul (.neg (.call N.sin [.name N.lat] [])) (.call N.cos [.name N.lon] []), .bin .mul (.neg (.call N.sin [.name N.lat] [])) (.call N.sin [.name N.lon] []), .call N.cos [.name N.lat] []], .list [.neg (.call N.sin [.name N.lon] []), .call N.cos [.name N.lon] [], .int 0], .list [.bin .mul (.neg (.call N.cos [.name N.lat] [])) (.call N.cos [.name N.lon] []), .bin .mul (.neg (.call N.cos [.name N.lat] [])) (.call N.sin [.name N.lon] []), .neg (.call N.sin [.name N.lat] [])]]] []),",
    "new": "    .assign (.name N.Re2t) (.call N.array [.list [.list [.bin .mul (.neg (.call N.sin [.name N.lat] [])) (.call N.cos [.name N.lon] []), .bin .div (.neg (.call N.sin [.name N.lat] [])) (.call N.sin [.name N.lon] []), .call N.cos [.name N.lat] []], .list [.neg (.call N.sin [.name N.lon] []), .call N.cos [.name N.lon] [], .int 0], .list [.bin .mul (.neg (.call N.cos [.name N.lat] [])) (.call N.cos [.name N.lon] []), .bin .mul (.neg (.call N.cos [.name N.lat] [])) (.call N.sin [.name N.lon] []), .neg (.call N.sin [.name N.lat] [])]]] []),",
    "descr": ".bin .mul -> .bin .div in: .assign (.name N.Re2t) (.call N.array [.list [.list [.bin .mul (.neg (.call N.sin [.name N.lat] [])) (.call N.cos [.name"
   },
   {
    "file": "Verif/Source/Calc.lean",
    "within": "rangeCoordinates.GPS.ecef2utm",
    "old": "    .assign (.tuple [.name N.utm, .name N.info]) (.method (.name N.self) N.lla2utm [.name N.lla] []),\n",
    "new": "",
    "descr": "dropped: .assign (.tuple [.name N.utm, .name N.info]) (.method (.name N.self) N.lla2utm [.name N.lla] []),"
   },
   {
    "file": "Verif/Source/Calc.lean",
    "within": "rangeCoordinates.GPS.ecefvec2nedvec",
    "old": "   [.ret (.call N.array [.list [.list [.bin .mul (.neg (.call N.sin [.name N.lat] [])) (.call N.cos [.name N.lon] []), .bin .mul (.neg (.call N.sin [.name N.lat] [])) (.call N.sin [.name N.lon] []), .call N.cos [.name N.lat] []], .list [.neg (.call N.sin [.name N.lon] []), .call N.cos [.name N.lon] [], .int 0], .list [.bin .mul (.neg (.call N.cos [.name N.lat] [])) (.call N.cos [.name N.lon] []), .bin .mul (.neg (.call N.cos [.name N.lat] [])) (.call N.sin [.name N.lon] []), .neg (.call N.sin [.name N.lat] [])]]] [])]",
    "new": "   [.ret (.call N.array [.list [.list [.bin .mul (.neg (.call N.sin [.name N.lat] [])) (.call N.sin [.name N.lon] []), .bin .mul (.neg (.call N.sin [.name N.lat] [])) (.call N.sin [.name N.lon] []), .call N.cos [.name N.lat] []], .list [.neg (.call N.sin [.name N.lon] []), .call N.cos [.name N.lon] [], .int 0], .list [.bin .mul (.neg (.call N.cos [.name N.lat] [])) (.call N.cos [.name N.lon] []), .bin .mul (.neg (.call N.cos [.name N.lat] [])) (.call N.sin [.name N.lon] []), .neg (.call N.sin [.name N.lat] [])]]] [])]",
    "descr": "N.cos -> N.sin in: [.ret (.call N.array [.list [.list [.bin .mul (.neg (.call N.sin [.name N.lat] [])) (.call N.cos [.name N.lon] []), .bin"
   },
   {
    "file": "Verif/Source/Calc.lean",
    "within": "rangeCoordinates.GPS.lla2ecef",
    "old": "    .assign (.name N.y) (.bin .mul (.bin .mul (.bin .add (.name N.N) (.name N.alt)) (.call N.cos [.name N.lat] [])) (.call N.sin [.name N.lon] [])),",
    "new": "    .assign (.name N.y) (.bin .mul (.bin .mul (.bin .add (.name N.N) (.name N.alt)) (.call N.sin [.name N.lat] [])) (.call N.sin [.name N.lon] [])),",
    "descr": "N.cos -> N.sin in: .assign (.name N.y) (.bin .mul (.bin .mul (.bin .add (.name N.N) (.name N.alt)) (.call N.cos [.name N.lat] [])) (.call N"
   },
   {
    "file": "Verif/Source/Calc.lean",
    "within": "rangeCoordinates.GPS.lla2gcc",
    "old": "    .ret (.tuple [.bin .sub (.name N.x) (.name N.x0), .bin .sub (.name N.y) (.name N.y0), .bin .sub (.name N.z) (.name N.z0)])]",
    "new": "    .ret (.tuple [.bin .add (.name N.x) (.name N.x0), .bin .sub (.name N.y) (.name N.y0), .bin .sub (.name N.z) (.name N.z0)])]",
    "descr": ".bin .sub -> .bin .add in: .ret (.tuple [.bin .sub (.name N.x) (.name N.x0), .bin .sub (.name N.y) (.name N.y0), .bin .sub (.name N.z) (.name N.z0)"
   },
   {
    "file": "Verif/Source/Calc.lean",
    "within": "rangeCoordinates.GPS.lla2utm",
    "old": "    .assign (.name N.alt) (.index (.name N.lla) (.int 2)),",
    "new": "    .assign (.name N.alt) (.index (.name N.lla) (.int 3)),",
    "descr": "(.int 2) -> (.int 3) in: .assign (.name N.alt) (.index (.name N.lla) (.int 2)),"
   },
   {
    "file": "Verif/Source/Calc.lean",
    "within": "rangeCoordinates.GPS.llarpy2ecef",
    "old": "    .assign (.name N.Z2) (.call N.dot [.method (.name N.self) N.rotate_3x3 [.name N.theta, .name N.Y2] [], .name N.Z0] []),\n    .assign (.name N.phi) (.call N.atan2 [.call N.dot [.name N.y3, .name N.Z2] [], .call N.dot [.name N.y3, .name N.Y2] []] []),\n",
    "new": "    .assign (.name N.phi) (.call N.atan2 [.call N.dot [.name N.y3, .name N.Z2] [], .call N.dot [.name N.y3, .name N.Y2] []] []),\n    .assign (.name N.Z2) (.call N.dot [.method (.name N.self) N.rotate_3x3 [.name N.theta, .name N.Y2] [], .name N.Z0] []),\n",
    "descr": "swapped: .assign (.name N.Z2) (.call N.dot [.method (.name N.self) N.rotate_3x3 [.name N.theta, .name N.Y2] [], .name N.Z0] []), / .assign (.name N.phi) (.call N.atan2 [.call N.dot [.name N.y3, .name N.Z2] [], .call N.dot [.name N.y3, .name N.Y2] []] []),"
   },
   {
    "file": "Verif/Source/Calc.lean",
    "within": "rangeCoordinates.GPS.ned2ecef",
    "old": "    .assign (.name N.Rt2e) (.call N.array [.list [.list [.bin .mul (.neg (.call N.sin [.name N.lat] [])) (.call N.cos [.name N.lon] []), .neg (.call N.sin [.name N.lon] []), .bin .mul (.neg (.call N.cos [.name N.lat] [])) (.call N.cos [.name N.lon] [])], .list [.bin .mul (.neg (.call N.sin [.name N.lat] [])) (.call N.sin [.name N.lon] []), .call N.cos [.name N.lon] [], .bin .mul (.neg (.call N.cos [.name N.lat] [])) (.call N.sin [.name N.lon] [])], .list [.call N.cos [.name N.lat] [], .dec 0 0, .neg (.call N.sin [.name N.lat] [])]]] []),",
    "new": "    .assign (.name N.Rt2e) (.call N.array [.list [.list [.bin .mul (.neg (.call N.sin [.name N.lat] [])) (.call N.cos [.name N.lon] []), .neg (.call N.sin [.name N.lon] []), .bin .mul ((.call N.cos [.name N.lat] [])) (.call N.cos [.name N.lon] [])], .list [.bin .mul (.neg (.call N.sin [.name N.lat] [])) (.call N.sin [.name N.lon] []), .call N.cos [.name N.lon] [], .bin .mul (.neg (.call N.cos [.name N.lat] [])) (.call N.sin [.name N.lon] [])], .list [.call N.cos [.name N.lat] [], .dec 0 0, .neg (.call N.sin [.name N.lat] [])]]] []),",
    "descr": ".neg ->  in: .assign (.name N.Rt2e) (.call N.array [.list [.list [.bin .mul (.neg (.call N.sin [.name N.lat] [])) (.call N.cos [.name"
   },
   {
    "file": "Verif/Source/Calc.lean",
    "within": "rangeCoordinates.GPS.ned2pae",
    "old": "    .assign (.name N.epsilon) (.call N.atan2 [.neg (.index (.name N.ned) (.int 2)), .call N.sqrt [.bin .add (.bin .pow (.index (.name N.ned) (.int 0)) (.int 2)) (.bin .pow (.index (.name N.ned) (.int 1)) (.int 2))] []] []),",
    "new": "    .assign (.name N.epsilon) (.call N.atan2 [.neg (.index (.name N.ned) (.int 3)), .call N.sqrt [.bin .add (.bin .pow (.index (.name N.ned) (.int 0)) (.int 2)) (.bin .pow (.index (.name N.ned) (.int 1)) (.int 2))] []] []),",
    "descr": "(.int 2) -> (.int 3) in: .assign (.name N.epsilon) (.call N.atan2 [.neg (.index (.name N.ned) (.int 2)), .call N.sqrt [.bin .add (.bin .pow (.ind"
   },
   {
    "file": "Verif/Source/Calc.lean",
    "within": "rangeCoordinates.GPS.rotate_3x3",
    "old": "   [.assign (.name N.n_x) (.call N.array [.list [.list [.int 0, .neg (.index (.name N.normal_vec) (.int 2)), .index (.name N.normal_vec) (.int 1)], .list [.index (.name N.normal_vec) (.int 2), .int 0, .neg (.index (.name N.normal_vec) (.int 0))], .list [.neg (.index (.name N.normal_vec) (.int 1)), .index (.name N.normal_vec) (.int 0), .int 0]]] []),",
    "new": "   [.assign (.name N.n_x) (.call N.array [.list [.list [.int 0, .neg (.index (.name N.normal_vec) (.int 2)), .index (.name N.normal_vec) (.int 1)], .list [.index (.name N.normal_vec) (.int 2), .int 0, .neg (.index (.name N.normal_vec) (.int 0))], .list [.neg (.index (.name N.normal_vec) (.int 1)), .index (.name N.normal_vec) (.int 1), .int 0]]] []),",
    "descr": "(.int 0) -> (.int 1) in: [.assign (.name N.n_x) (.call N.array [.list [.list [.int 0, .neg (.index (.name N.normal_vec) (.int 2)), .index (.name "
   },
   {
    "file": "Verif/Source/Calc.lean",
    "within": "rangeCoordinates.GPS.transpose",
    "old": "   [.ret (.call N.array [.list [.list [.index (.name N.arr) (.int 0)], .list [.index (.name N.arr) (.int 1)], .list [.index (.name N.arr) (.int 2)]]] [])]",
    "new": "   [.ret (.call N.array [.list [.list [.index (.name N.arr) (.int 1)], .list [.index (.name N.arr) (.int 1)], .list [.index (.name N.arr) (.int 2)]]] [])]",
    "descr": "(.int 0) -> (.int 1) in: [.ret (.call N.array [.list [.list [.index (.name N.arr) (.int 0)], .list [.index (.name N.arr) (.int 1)], .list [.index"
   },
   {
    "file": "Verif/Source/Calc.lean",
    "within": "rangeCoordinates.GPS.utmLetterDesignator",
    "old": "               [.ite (.cmp (.neg (.int 48)) [(.le, .name N.lat), (.lt, .neg (.int 40))])",
    "new": "               [.ite (.cmp ((.int 48)) [(.le, .name N.lat), (.lt, .neg (.int 40))])",
    "descr": ".neg ->  in: [.ite (.cmp (.neg (.int 48)) [(.le, .name N.lat), (.lt, .neg (.int 40))])"
   },
   {
    "file": "Verif/Source/Calc.lean",
    "within": "deadReckoning.get_rotation_matrix",
    "old": "    .assign (.name N.r23) (.bin .sub (.bin .mul (.bin .mul (.name N.s_psi) (.name N.s_theta)) (.name N.c_phi)) (.bin .mul (.name N.c_psi) (.name N.s_phi))),",
    "new": "    .assign (.name N.r23) (.bin .sub (.bin .div (.bin .mul (.name N.s_psi) (.name N.s_theta)) (.name N.c_phi)) (.bin .mul (.name N.c_psi) (.name N.s_phi))),",
    "descr": ".bin .mul -> .bin .div in: .assign (.name N.r23) (.bin .sub (.bin .mul (.bin .mul (.name N.s_psi) (.name N.s_theta)) (.name N.c_phi)) (.bin .mul (."
   },
   {
    "file": "Verif/Source/Calc.lean",
    "within": "deadReckoning.get_angular_velocity_matrix",
    "old": "    .ret (.method (.name N.np) N.array [.list [.list [.int 0, .neg (.name N.wz), .name N.wy], .list [.name N.wz, .int 0, .neg (.name N.wx)], .list [.neg (.name N.wy), .name N.wx, .int 0]]] [])]",
    "new": "    .ret (.method (.name N.np) N.array [.list [.list [.int 0, (.name N.wz), .name N.wy], .list [.name N.wz, .int 0, .neg (.name N.wx)], .list [.neg (.name N.wy), .name N.wx, .int 0]]] [])]",
    "descr": ".neg ->  in: .ret (.method (.name N.np) N.array [.list [.list [.int 0, .neg (.name N.wz), .name N.wy], .list [.name N.wz, .int 0, .ne"
   },
   {
    "file": "Verif/Source/Calc.lean",
    "within": "deadReckoning.drm_fpw",
    "old": "    .assign (.name N.new_position) (.bin .add (.name N.pos) (.bin .mul (.name N.vel) (.name N.dt))),\n",
    "new": "",
    "descr": "dropped: .assign (.name N.new_position) (.bin .add (.name N.pos) (.bin .mul (.name N.vel) (.name N.dt))),"
   },
   {
    "file": "Verif/Source/Calc.lean",
    "within": "deadReckoning.drm_rpw",
    "old": "    .assign (.name N.new_position) (.bin .add (.name N.pos) (.bin .mul (.name N.vel) (.name N.dt))),\n",
    "new": "",
    "descr": "dropped: .assign (.name N.new_position) (.bin .add (.name N.pos) (.bin .mul (.name N.vel) (.name N.dt))),"
   },
   {
    "file": "Verif/Source/Calc.lean",
    "within": "deadReckoning.drm_rvw",
    "old": "    .assign (.name N.new_position) (.bin .add (.bin .add (.name N.pos) (.bin .mul (.name N.vel) (.name N.dt))) (.bin .mul (.bin .mul (.dec 5 (-1)) (.name N.acc)) (.bin .pow (.name N.dt) (.int 2)))),",
    "new": "    .assign (.name N.new_position) (.bin .add (.bin .add (.name N.pos) (.bin .mul (.name N.vel) (.name N.dt))) (.bin .div (.bin .mul (.dec 5 (-1)) (.name N.acc)) (.bin .pow (.name N.dt) (.int 2)))),",
    "descr": ".bin .mul -> .bin .div in: .assign (.name N.new_position) (.bin .add (.bin .add (.name N.pos) (.bin .mul (.name N.vel) (.name N.dt))) (.bin .mul (."
   },
   {
    "file": "Verif/Source/Calc.lean",
    "within": "deadReckoning.drm_fvw",
    "old": "    .assign (.name N.new_position) (.bin .add (.bin .add (.name N.pos) (.bin .mul (.name N.vel) (.name N.dt))) (.bin .mul (.bin .mul (.dec 5 (-1)) (.name N.acc)) (.bin .pow (.name N.dt) (.int 2)))),\n",
    "new": "",
    "descr": "dropped: .assign (.name N.new_position) (.bin .add (.bin .add (.name N.pos) (.bin .mul (.name N.vel) (.name N.dt))) (.bin .mul (.bin .mul (.dec 5 (-1)) (.name N.acc)) (.bin .pow (.name N.dt) (.int 2)))),"
   },
   {
    "file": "Verif/Source/Calc.lean",
    "within": "deadReckoning.drm_fpb",
    "old": "    .assign (.name N.new_position) (.bin .add (.name N.pos) (.bin .mul (.name N.velocity_world) (.name N.dt))),",
    "new": "    .assign (.name N.new_position) (.bin .sub (.name N.pos) (.bin .mul (.name N.velocity_world) (.name N.dt))),",
    "descr": ".bin .add -> .bin .sub in: .assign (.name N.new_position) (.bin .add (.name N.pos) (.bin .mul (.name N.velocity_world) (.name N.dt))),"
   },
   {
    "file": "Verif/Source/Calc.lean",
    "within": "deadReckoning.drm_rpb",
    "old": "    .assign (.name N.new_position) (.bin .add (.name N.pos) (.bin .mul (.name N.velocity_world) (.name N.dt))),",
    "new": "    .assign (.name N.new_position) (.bin .add (.name N.pos) (.bin .div (.name N.velocity_world) (.name N.dt))),",
    "descr": ".bin .mul -> .bin .div in: .assign (.name N.new_position) (.bin .add (.name N.pos) (.bin .mul (.name N.velocity_world) (.name N.dt))),"
   },
   {
    "file": "Verif/Source/Calc.lean",
    "within": "deadReckoning.drm_rvb",
    "old": "    .assign (.name N.displacement_body) (.bin .add (.bin .mul (.name N.vel) (.name N.dt)) (.bin .mul (.bin .mul (.dec 5 (-1)) (.name N.acc)) (.bin .pow (.name N.dt) (.int 2)))),",
    "new": "    .assign (.name N.displacement_body) (.bin .add (.bin .mul (.name N.vel) (.name N.dt)) (.bin .mul (.bin .mul (.dec 5 (-1)) (.name N.acc)) (.bin .pow (.name N.dt) (.int 3)))),",
    "descr": "(.int 2) -> (.int 3) in: .assign (.name N.displacement_body) (.bin .add (.bin .mul (.name N.vel) (.name N.dt)) (.bin .mul (.bin .mul (.dec 5 (-1)"
   },
   {
    "file": "Verif/Source/Calc.lean",
    "within": "deadReckoning.drm_fvb",
    "old": "    .assign (.name N.new_position) (.bin .add (.name N.pos) (.name N.displacement_world)),",
    "new": "    .assign (.name N.new_position) (.bin .sub (.name N.pos) (.name N.displacement_world)),",
    "descr": ".bin .add -> .bin .sub in: .assign (.name N.new_position) (.bin .add (.name N.pos) (.name N.displacement_world)),"
   }
  ]
 },
 {
  "id": "T3",
  "definition": "Verif/Source/Io.lean",
  "claim": "the streams and the factory do what their text says (C79)",
  "expect": [
   "C79"
  ],
  "edits": [
   {
    "file": "Verif/Source/Io.lean",
    "within": "DataInputStream.read_boolean",
    "old": "   [.ret (.index (.method (.name I.struct) I.unpack [.str [63], .method (.attr (.name I.self) I.stream) I.read [.int 1]]) (.int 0))]",
    "new": "   [.ret (.index (.method (.name I.struct) I.unpack [.str [98], .method (.attr (.name I.self) I.stream) I.read [.int 1]]) (.int 0))]",
    "descr": "[63] -> [98] in: [.ret (.index (.method (.name I.struct) I.unpack [.str [63], .method (.attr (.name I.self) I.stream) I.read [.int 1]]) ("
   },
   {
    "file": "Verif/Source/Io.lean",
    "within": "DataInputStream.read_byte",
    "old": "   [.ret (.index (.method (.name I.struct) I.unpack [.str [98], .method (.attr (.name I.self) I.stream) I.read [.int 1]]) (.int 0))]",
    "new": "   [.ret (.index (.method (.name I.struct) I.unpack [.str [66], .method (.attr (.name I.self) I.stream) I.read [.int 1]]) (.int 0))]",
    "descr": "[98] -> [66] in: [.ret (.index (.method (.name I.struct) I.unpack [.str [98], .method (.attr (.name I.self) I.stream) I.read [.int 1]]) ("
   },
   {
    "file": "Verif/Source/Io.lean",
    "within": "DataInputStream.read_unsigned_byte",
    "old": "   [.ret (.index (.method (.name I.struct) I.unpack [.str [66], .method (.attr (.name I.self) I.stream) I.read [.int 1]]) (.int 0))]",
    "new": "   [.ret (.index (.method (.name I.struct) I.unpack [.str [98], .method (.attr (.name I.self) I.stream) I.read [.int 1]]) (.int 0))]",
    "descr": "[66] -> [98] in: [.ret (.index (.method (.name I.struct) I.unpack [.str [66], .method (.attr (.name I.self) I.stream) I.read [.int 1]]) ("
   },
   {
    "file": "Verif/Source/Io.lean",
    "within": "DataInputStream.read_char",
    "old": "   [.ret (.call I.chr [.index (.method (.name I.struct) I.unpack [.str [62, 72], .method (.attr (.name I.self) I.stream) I.read [.int 2]]) (.int 0)])]",
    "new": "   [.ret (.call I.chr [.index (.method (.name I.struct) I.unpack [.str [62, 104], .method (.attr (.name I.self) I.stream) I.read [.int 2]]) (.int 0)])]",
    "descr": "[62, 72] -> [62, 104] in: [.ret (.call I.chr [.index (.method (.name I.struct) I.unpack [.str [62, 72], .method (.attr (.name I.self) I.stream) I."
   },
   {
    "file": "Verif/Source/Io.lean",
    "within": "DataInputStream.read_double",
    "old": "   [.ret (.index (.method (.name I.struct) I.unpack [.str [62, 100], .method (.attr (.name I.self) I.stream) I.read [.int 8]]) (.int 0))]",
    "new": "   [.ret (.index (.method (.name I.struct) I.unpack [.str [62, 100], .method (.attr (.name I.self) I.stream) I.read [.int 4]]) (.int 0))]",
    "descr": ".int 8 -> .int 4 in: [.ret (.index (.method (.name I.struct) I.unpack [.str [62, 100], .method (.attr (.name I.self) I.stream) I.read [.int 8"
   },
   {
    "file": "Verif/Source/Io.lean",
    "within": "DataInputStream.read_float",
    "old": "   [.ret (.index (.method (.name I.struct) I.unpack [.str [62, 102], .method (.attr (.name I.self) I.stream) I.read [.int 4]]) (.int 0))]",
    "new": "   [.ret (.index (.method (.name I.struct) I.unpack [.str [62, 102], .method (.attr (.name I.self) I.stream) I.read [.int 2]]) (.int 0))]",
    "descr": ".int 4 -> .int 2 in: [.ret (.index (.method (.name I.struct) I.unpack [.str [62, 102], .method (.attr (.name I.self) I.stream) I.read [.int 4"
   },
   {
    "file": "Verif/Source/Io.lean",
    "within": "DataInputStream.read_short",
    "old": "   [.ret (.index (.method (.name I.struct) I.unpack [.str [62, 104], .method (.attr (.name I.self) I.stream) I.read [.int 2]]) (.int 0))]",
    "new": "   [.ret (.index (.method (.name I.struct) I.unpack [.str [62, 104], .method (.attr (.name I.self) I.stream) I.read [.int 4]]) (.int 0))]",
    "descr": ".int 2 -> .int 4 in: [.ret (.index (.method (.name I.struct) I.unpack [.str [62, 104], .method (.attr (.name I.self) I.stream) I.read [.int 2"
   },
   {
    "file": "Verif/Source/Io.lean",
    "within": "DataInputStream.read_unsigned_short",
    "old": "   [.ret (.index (.method (.name I.struct) I.unpack [.str [62, 72], .method (.attr (.name I.self) I.stream) I.read [.int 2]]) (.int 0))]",
    "new": "   [.ret (.index (.method (.name I.struct) I.unpack [.str [62, 104], .method (.attr (.name I.self) I.stream) I.read [.int 2]]) (.int 0))]",
    "descr": "[62, 72] -> [62, 104] in: [.ret (.index (.method (.name I.struct) I.unpack [.str [62, 72], .method (.attr (.name I.self) I.stream) I.read [.int 2]"
   },
   {
    "file": "Verif/Source/Io.lean",
    "within": "DataInputStream.read_long",
    "old": "   [.ret (.index (.method (.name I.struct) I.unpack [.str [62, 113], .method (.attr (.name I.self) I.stream) I.read [.int 8]]) (.int 0))]",
    "new": "   [.ret (.index (.method (.name I.struct) I.unpack [.str [62, 81], .method (.attr (.name I.self) I.stream) I.read [.int 8]]) (.int 0))]",
    "descr": "[62, 113] -> [62, 81] in: [.ret (.index (.method (.name I.struct) I.unpack [.str [62, 113], .method (.attr (.name I.self) I.stream) I.read [.int 8"
   },
   {
    "file": "Verif/Source/Io.lean",
    "within": "DataInputStream.read_utf",
    "old": "   [.assign (.name I.utf_length) (.index (.method (.name I.struct) I.unpack [.str [62, 72], .method (.attr (.name I.self) I.stream) I.read [.int 2]]) (.int 0)),",
    "new": "   [.assign (.name I.utf_length) (.index (.method (.name I.struct) I.unpack [.str [62, 72], .method (.attr (.name I.self) I.stream) I.read [.int 4]]) (.int 0)),",
    "descr": ".int 2 -> .int 4 in: [.assign (.name I.utf_length) (.index (.method (.name I.struct) I.unpack [.str [62, 72], .method (.attr (.name I.self) I"
   },
   {
    "file": "Verif/Source/Io.lean",
    "within": "DataInputStream.read_int",
    "old": "   [.ret (.index (.method (.name I.struct) I.unpack [.str [62, 105], .method (.attr (.name I.self) I.stream) I.read [.int 4]]) (.int 0))]",
    "new": "   [.ret (.index (.method (.name I.struct) I.unpack [.str [62, 105], .method (.attr (.name I.self) I.stream) I.read [.int 2]]) (.int 0))]",
    "descr": ".int 4 -> .int 2 in: [.ret (.index (.method (.name I.struct) I.unpack [.str [62, 105], .method (.attr (.name I.self) I.stream) I.read [.int 4"
   },
   {
    "file": "Verif/Source/Io.lean",
    "within": "DataInputStream.read_unsigned_int",
    "old": "   [.ret (.index (.method (.name I.struct) I.unpack [.str [62, 73], .method (.attr (.name I.self) I.stream) I.read [.int 4]]) (.int 0))]",
    "new": "   [.ret (.index (.method (.name I.struct) I.unpack [.str [62, 73], .method (.attr (.name I.self) I.stream) I.read [.int 2]]) (.int 0))]",
    "descr": ".int 4 -> .int 2 in: [.ret (.index (.method (.name I.struct) I.unpack [.str [62, 73], .method (.attr (.name I.self) I.stream) I.read [.int 4]"
   },
   {
    "file": "Verif/Source/Io.lean",
    "within": "DataInputStream.read_char8",
    "old": "   [.ret (.call I.char8 [.method (.name I.self) I.read_char []])]",
    "new": "   [.ret (.call I.char8 [.method (.name I.self) I.read_byte []])]",
    "descr": "I.read_char -> I.read_byte in: [.ret (.call I.char8 [.method (.name I.self) I.read_char []])]"
   },
   {
    "file": "Verif/Source/Io.lean",
    "within": "DataInputStream.read_float32",
    "old": "   [.ret (.call I.float32 [.method (.name I.self) I.read_float []])]",
    "new": "   [.ret (.call I.float32 [.method (.name I.self) I.read_double []])]",
    "descr": "I.read_float -> I.read_double in: [.ret (.call I.float32 [.method (.name I.self) I.read_float []])]"
   },
   {
    "file": "Verif/Source/Io.lean",
    "within": "DataInputStream.read_float64",
    "old": "   [.ret (.call I.float64 [.method (.name I.self) I.read_double []])]",
    "new": "   [.ret (.call I.float64 [.method (.name I.self) I.read_float []])]",
    "descr": "I.read_double -> I.read_float in: [.ret (.call I.float64 [.method (.name I.self) I.read_double []])]"
   },
   {
    "file": "Verif/Source/Io.lean",
    "within": "DataInputStream.read_int8",
    "old": "   [.ret (.call I.int8 [.method (.name I.self) I.read_byte []])]",
    "new": "   [.ret (.call I.int8 [.method (.name I.self) I.read_unsigned_byte []])]",
    "descr": "I.read_byte -> I.read_unsigned_byte in: [.ret (.call I.int8 [.method (.name I.self) I.read_byte []])]"
   },
   {
    "file": "Verif/Source/Io.lean",
    "within": "DataInputStream.read_int16",
    "old": "   [.ret (.call I.int16 [.method (.name I.self) I.read_short []])]",
    "new": "   [.ret (.call I.int16 [.method (.name I.self) I.read_unsigned_short []])]",
    "descr": "I.read_short -> I.read_unsigned_short in: [.ret (.call I.int16 [.method (.name I.self) I.read_short []])]"
   },
   {
    "file": "Verif/Source/Io.lean",
    "within": "DataInputStream.read_int32",
    "old": "   [.ret (.call I.int32 [.method (.name I.self) I.read_int []])]",
    "new": "   [.ret (.call I.int32 [.method (.name I.self) I.read_unsigned_int []])]",
    "descr": "I.read_int -> I.read_unsigned_int in: [.ret (.call I.int32 [.method (.name I.self) I.read_int []])]"
   },
   {
    "file": "Verif/Source/Io.lean",
    "within": "DataInputStream.read_int64",
    "old": "   [.ret (.call I.int64 [.method (.name I.self) I.read_long []])]",
    "new": "   [.ret (.call I.int64 [.method (.name I.self) I.read_int []])]",
    "descr": "I.read_long -> I.read_int in: [.ret (.call I.int64 [.method (.name I.self) I.read_long []])]"
   },
   {
    "file": "Verif/Source/Io.lean",
    "within": "DataInputStream.read_uint8",
    "old": "   [.ret (.call I.uint8 [.method (.name I.self) I.read_unsigned_byte []])]",
    "new": "   [.ret (.call I.uint8 [.method (.name I.self) I.read_byte []])]",
    "descr": "I.read_unsigned_byte -> I.read_byte in: [.ret (.call I.uint8 [.method (.name I.self) I.read_unsigned_byte []])]"
   },
   {
    "file": "Verif/Source/Io.lean",
    "within": "DataInputStream.read_uint16",
    "old": "   [.ret (.call I.uint16 [.method (.name I.self) I.read_unsigned_short []])]",
    "new": "   [.ret (.call I.uint16 [.method (.name I.self) I.read_short []])]",
    "descr": "I.read_unsigned_short -> I.read_short in: [.ret (.call I.uint16 [.method (.name I.self) I.read_unsigned_short []])]"
   },
   {
    "file": "Verif/Source/Io.lean",
    "within": "DataInputStream.read_uint32",
    "old": "   [.ret (.call I.uint32 [.method (.name I.self) I.read_unsigned_int []])]",
    "new": "   [.ret (.call I.uint32 [.method (.name I.self) I.read_int []])]",
    "descr": "I.read_unsigned_int -> I.read_int in: [.ret (.call I.uint32 [.method (.name I.self) I.read_unsigned_int []])]"
   },
   {
    "file": "Verif/Source/Io.lean",
    "within": "DataInputStream.read_uint64",
    "old": "   [.ret (.call I.uint64 [.method (.name I.self) I.read_long []])]",
    "new": "   [.ret (.call I.uint64 [.method (.name I.self) I.read_int []])]",
    "descr": "I.read_long -> I.read_int in: [.ret (.call I.uint64 [.method (.name I.self) I.read_long []])]"
   },
   {
    "file": "Verif/Source/Io.lean",
    "within": "DataOutputStream.write_boolean",
    "old": "   [.expr (.method (.attr (.name I.self) I.stream) I.write [.method (.name I.struct) I.pack [.str [63], .name I.boolean]])]",
    "new": "   [.expr (.method (.attr (.name I.self) I.stream) I.write [.method (.name I.struct) I.pack [.str [98], .name I.boolean]])]",
    "descr": "[63] -> [98] in: [.expr (.method (.attr (.name I.self) I.stream) I.write [.method (.name I.struct) I.pack [.str [63], .name I.boolean]])]"
   },
   {
    "file": "Verif/Source/Io.lean",
    "within": "DataOutputStream.write_byte",
    "old": "   [.expr (.method (.attr (.name I.self) I.stream) I.write [.method (.name I.struct) I.pack [.str [98], .name I.val]])]",
    "new": "   [.expr (.method (.attr (.name I.self) I.stream) I.write [.method (.name I.struct) I.pack [.str [66], .name I.val]])]",
    "descr": "[98] -> [66] in: [.expr (.method (.attr (.name I.self) I.stream) I.write [.method (.name I.struct) I.pack [.str [98], .name I.val]])]"
   },
   {
    "file": "Verif/Source/Io.lean",
    "within": "DataOutputStream.write_unsigned_byte",
    "old": "   [.expr (.method (.attr (.name I.self) I.stream) I.write [.method (.name I.struct) I.pack [.str [66], .name I.val]])]",
    "new": "   [.expr (.method (.attr (.name I.self) I.stream) I.write [.method (.name I.struct) I.pack [.str [98], .name I.val]])]",
    "descr": "[66] -> [98] in: [.expr (.method (.attr (.name I.self) I.stream) I.write [.method (.name I.struct) I.pack [.str [66], .name I.val]])]"
   },
   {
    "file": "Verif/Source/Io.lean",
    "within": "DataOutputStream.write_char",
    "old": "   [.expr (.method (.attr (.name I.self) I.stream) I.write [.method (.name I.struct) I.pack [.str [62, 72], .call I.ord [.name I.val]]])]",
    "new": "   [.expr (.method (.attr (.name I.self) I.stream) I.write [.method (.name I.struct) I.pack [.str [62, 104], .call I.ord [.name I.val]]])]",
    "descr": "[62, 72] -> [62, 104] in: [.expr (.method (.attr (.name I.self) I.stream) I.write [.method (.name I.struct) I.pack [.str [62, 72], .call I.ord [.n"
   },
   {
    "file": "Verif/Source/Io.lean",
    "within": "DataOutputStream.write_double",
    "old": "   [.expr (.method (.attr (.name I.self) I.stream) I.write [.method (.name I.struct) I.pack [.str [62, 100], .name I.val]])]",
    "new": "   [.expr (.method (.attr (.name I.self) I.stream) I.write [.method (.name I.struct) I.pack [.str [100], .name I.val]])]",
    "descr": "[62, 100] -> [100] in: [.expr (.method (.attr (.name I.self) I.stream) I.write [.method (.name I.struct) I.pack [.str [62, 100], .name I.val]])"
   },
   {
    "file": "Verif/Source/Io.lean",
    "within": "DataOutputStream.write_float",
    "old": "   [.expr (.method (.attr (.name I.self) I.stream) I.write [.method (.name I.struct) I.pack [.str [62, 102], .name I.val]])]",
    "new": "   [.expr (.method (.attr (.name I.self) I.stream) I.write [.method (.name I.struct) I.pack [.str [102], .name I.val]])]",
    "descr": "[62, 102] -> [102] in: [.expr (.method (.attr (.name I.self) I.stream) I.write [.method (.name I.struct) I.pack [.str [62, 102], .name I.val]])"
   },
   {
    "file": "Verif/Source/Io.lean",
    "within": "DataOutputStream.write_short",
    "old": "   [.expr (.method (.attr (.name I.self) I.stream) I.write [.method (.name I.struct) I.pack [.str [62, 104], .name I.val]])]",
    "new": "   [.expr (.method (.attr (.name I.self) I.stream) I.write [.method (.name I.struct) I.pack [.str [62, 72], .name I.val]])]",
    "descr": "[62, 104] -> [62, 72] in: [.expr (.method (.attr (.name I.self) I.stream) I.write [.method (.name I.struct) I.pack [.str [62, 104], .name I.val]])"
   },
   {
    "file": "Verif/Source/Io.lean",
    "within": "DataOutputStream.write_unsigned_short",
    "old": "   [.expr (.method (.attr (.name I.self) I.stream) I.write [.method (.name I.struct) I.pack [.str [62, 72], .name I.val]])]",
    "new": "   [.expr (.method (.attr (.name I.self) I.stream) I.write [.method (.name I.struct) I.pack [.str [62, 104], .name I.val]])]",
    "descr": "[62, 72] -> [62, 104] in: [.expr (.method (.attr (.name I.self) I.stream) I.write [.method (.name I.struct) I.pack [.str [62, 72], .name I.val]])]"
   },
   {
    "file": "Verif/Source/Io.lean",
    "within": "DataOutputStream.write_long",
    "old": "   [.expr (.method (.attr (.name I.self) I.stream) I.write [.method (.name I.struct) I.pack [.str [62, 113], .name I.val]])]",
    "new": "   [.expr (.method (.attr (.name I.self) I.stream) I.write [.method (.name I.struct) I.pack [.str [62, 81], .name I.val]])]",
    "descr": "[62, 113] -> [62, 81] in: [.expr (.method (.attr (.name I.self) I.stream) I.write [.method (.name I.struct) I.pack [.str [62, 113], .name I.val]])"
   },
   {
    "file": "Verif/Source/Io.lean",
    "within": "DataOutputStream.write_utf",
    "old": "   [.expr (.method (.attr (.name I.self) I.stream) I.write [.method (.name I.struct) I.pack [.str [62, 72], .call I.len [.name I.string]]]),",
    "new": "   [.expr (.method (.attr (.name I.self) I.stream) I.write [.method (.name I.struct) I.pack [.str [62, 104], .call I.len [.name I.string]]]),",
    "descr": "[62, 72] -> [62, 104] in: [.expr (.method (.attr (.name I.self) I.stream) I.write [.method (.name I.struct) I.pack [.str [62, 72], .call I.len [.n"
   },
   {
    "file": "Verif/Source/Io.lean",
    "within": "DataOutputStream.write_int",
    "old": "   [.expr (.method (.attr (.name I.self) I.stream) I.write [.method (.name I.struct) I.pack [.str [62, 105], .name I.val]])]",
    "new": "   [.expr (.method (.attr (.name I.self) I.stream) I.write [.method (.name I.struct) I.pack [.str [62, 73], .name I.val]])]",
    "descr": "[62, 105] -> [62, 73] in: [.expr (.method (.attr (.name I.self) I.stream) I.write [.method (.name I.struct) I.pack [.str [62, 105], .name I.val]])"
   },
   {
    "file": "Verif/Source/Io.lean",
    "within": "DataOutputStream.write_unsigned_int",
    "old": "   [.expr (.method (.attr (.name I.self) I.stream) I.write [.method (.name I.struct) I.pack [.str [62, 73], .name I.val]])]",
    "new": "   [.expr (.method (.attr (.name I.self) I.stream) I.write [.method (.name I.struct) I.pack [.str [62, 105], .name I.val]])]",
    "descr": "[62, 73] -> [62, 105] in: [.expr (.method (.attr (.name I.self) I.stream) I.write [.method (.name I.struct) I.pack [.str [62, 73], .name I.val]])]"
   },
   {
    "file": "Verif/Source/Io.lean",
    "within": "DataOutputStream.write_char8",
    "old": "   [.expr (.method (.name I.self) I.write_byte [.call I.ord [.name I.val]])]",
    "new": "   [.expr (.method (.name I.self) I.write_unsigned_byte [.call I.ord [.name I.val]])]",
    "descr": "I.write_byte -> I.write_unsigned_byte in: [.expr (.method (.name I.self) I.write_byte [.call I.ord [.name I.val]])]"
   },
   {
    "file": "Verif/Source/Io.lean",
    "within": "DataOutputStream.write_float32",
    "old": "   [.expr (.method (.name I.self) I.write_float [.name I.val])]",
    "new": "   [.expr (.method (.name I.self) I.write_double [.name I.val])]",
    "descr": "I.write_float -> I.write_double in: [.expr (.method (.name I.self) I.write_float [.name I.val])]"
   },
   {
    "file": "Verif/Source/Io.lean",
    "within": "DataOutputStream.write_float64",
    "old": "   [.expr (.method (.name I.self) I.write_double [.name I.val])]",
    "new": "   [.expr (.method (.name I.self) I.write_float [.name I.val])]",
    "descr": "I.write_double -> I.write_float in: [.expr (.method (.name I.self) I.write_double [.name I.val])]"
   },
   {
    "file": "Verif/Source/Io.lean",
    "within": "DataOutputStream.write_int8",
    "old": "   [.expr (.method (.name I.self) I.write_byte [.name I.val])]",
    "new": "   [.expr (.method (.name I.self) I.write_unsigned_byte [.name I.val])]",
    "descr": "I.write_byte -> I.write_unsigned_byte in: [.expr (.method (.name I.self) I.write_byte [.name I.val])]"
   },
   {
    "file": "Verif/Source/Io.lean",
    "within": "DataOutputStream.write_int16",
    "old": "   [.expr (.method (.name I.self) I.write_short [.name I.val])]",
    "new": "   [.expr (.method (.name I.self) I.write_unsigned_short [.name I.val])]",
    "descr": "I.write_short -> I.write_unsigned_short in: [.expr (.method (.name I.self) I.write_short [.name I.val])]"
   },
   {
    "file": "Verif/Source/Io.lean",
    "within": "DataOutputStream.write_int32",
    "old": "   [.expr (.method (.name I.self) I.write_int [.name I.val])]",
    "new": "   [.expr (.method (.name I.self) I.write_unsigned_int [.name I.val])]",
    "descr": "I.write_int -> I.write_unsigned_int in: [.expr (.method (.name I.self) I.write_int [.name I.val])]"
   },
   {
    "file": "Verif/Source/Io.lean",
    "within": "DataOutputStream.write_int64",
    "old": "   [.expr (.method (.name I.self) I.write_long [.name I.val])]",
    "new": "   [.expr (.method (.name I.self) I.write_int [.name I.val])]",
    "descr": "I.write_long -> I.write_int in: [.expr (.method (.name I.self) I.write_long [.name I.val])]"
   },
   {
    "file": "Verif/Source/Io.lean",
    "within": "DataOutputStream.write_uint8",
    "old": "   [.expr (.method (.name I.self) I.write_unsigned_byte [.name I.val])]",
    "new": "   [.expr (.method (.name I.self) I.write_byte [.name I.val])]",
    "descr": "I.write_unsigned_byte -> I.write_byte in: [.expr (.method (.name I.self) I.write_unsigned_byte [.name I.val])]"
   },
   {
    "file": "Verif/Source/Io.lean",
    "within": "DataOutputStream.write_uint16",
    "old": "   [.expr (.method (.name I.self) I.write_unsigned_short [.name I.val])]",
    "new": "   [.expr (.method (.name I.self) I.write_short [.name I.val])]",
    "descr": "I.write_unsigned_short -> I.write_short in: [.expr (.method (.name I.self) I.write_unsigned_short [.name I.val])]"
   },
   {
    "file": "Verif/Source/Io.lean",
    "within": "DataOutputStream.write_uint32",
    "old": "   [.expr (.method (.name I.self) I.write_unsigned_int [.name I.val])]",
    "new": "   [.expr (.method (.name I.self) I.write_int [.name I.val])]",
    "descr": "I.write_unsigned_int -> I.write_int in: [.expr (.method (.name I.self) I.write_unsigned_int [.name I.val])]"
   },
   {
    "file": "Verif/Source/Io.lean",
    "within": "DataOutputStream.write_uint64",
    "old": "   [.expr (.method (.attr (.name I.self) I.stream) I.write [.method (.name I.struct) I.pack [.str [62, 81], .name I.val]])]",
    "new": "   [.expr (.method (.attr (.name I.self) I.stream) I.write [.method (.name I.struct) I.pack [.str [62, 113], .name I.val]])]",
    "descr": "[62, 81] -> [62, 113] in: [.expr (.method (.attr (.name I.self) I.stream) I.write [.method (.name I.struct) I.pack [.str [62, 81], .name I.val]])]"
   },
   {
    "file": "Verif/Source/Io.lean",
    "within": "getPdu",
    "old": "   [.expr (.method (.attr (.name I.inputStream) I.stream) I.seek [.int 2, .int 0]),",
    "new": "   [.expr (.method (.attr (.name I.inputStream) I.stream) I.seek [.int 4, .int 0]),",
    "descr": ".int 2 -> .int 4 in: [.expr (.method (.attr (.name I.inputStream) I.stream) I.seek [.int 2, .int 0]),"
   },
   {
    "file": "Verif/Source/Io.lean",
    "within": "createPdu",
    "old": "    .assign (.name I.inputStream) (.call I.DataInputStream [.name I.memoryStream]),\n",
    "new": "",
    "descr": "dropped: .assign (.name I.inputStream) (.call I.DataInputStream [.name I.memoryStream]),"
   }
  ]
 },
 {
  "id": "U1",
  "definition": "Verif/Source/Dis1.lean",
  "claim": "the classes do what their text says (C77)",
  "expect": [
   "C77"
  ],
  "edits": [
   {
    "file": "Verif/Source/Dis1.lean",
    "within": "DataQueryDatumSpecification.serialize",
    "old": "      [.expr (.method (.name I.outputStream) I.write_unsigned_int [.name I.datumID] [])]]",
    "new": "      [.expr (.method (.name I.outputStream) I.write_unsigned_short [.name I.datumID] [])]]",
    "descr": "I.write_unsigned_int -> I.write_unsigned_short in: [.expr (.method (.name I.outputStream) I.write_unsigned_int [.name I.datumID] [])]]"
   },
   {
    "file": "Verif/Source/Dis1.lean",
    "within": "RadioIdentifier.serialize",
    "old": "    .expr (.method (.name I.outputStream) I.write_unsigned_short [.attr (.name I.self) I.applicationNumber] []),\n",
    "new": "",
    "descr": "dropped: .expr (.method (.name I.outputStream) I.write_unsigned_short [.attr (.name I.self) I.applicationNumber] []),"
   },
   {
    "file": "Verif/Source/Dis1.lean",
    "within": "RadioIdentifier.parse",
    "old": "    .assign (.attr (.name I.self) I.radioNumber) (.method (.name I.inputStream) I.read_unsigned_short [] [])]",
    "new": "    .assign (.attr (.name I.self) I.radioNumber) (.method (.name I.inputStream) I.read_short [] [])]",
    "descr": "I.read_unsigned_short -> I.read_short in: .assign (.attr (.name I.self) I.radioNumber) (.method (.name I.inputStream) I.read_unsigned_short [] [])]"
   },
   {
    "file": "Verif/Source/Dis1.lean",
    "within": "RequestID.serialize",
    "old": "   [.expr (.method (.name I.outputStream) I.write_unsigned_int [.attr (.name I.self) I.requestID] [])]",
    "new": "   [.expr (.method (.name I.outputStream) I.write_unsigned_short [.attr (.name I.self) I.requestID] [])]",
    "descr": "I.write_unsigned_int -> I.write_unsigned_short in: [.expr (.method (.name I.outputStream) I.write_unsigned_int [.attr (.name I.self) I.requestID] [])]"
   },
   {
    "file": "Verif/Source/Dis1.lean",
    "within": "RequestID.parse",
    "old": "   [.assign (.attr (.name I.self) I.requestID) (.method (.name I.inputStream) I.read_unsigned_int [] [])]",
    "new": "   [.assign (.attr (.name I.self) I.requestID) (.method (.name I.inputStream) I.read_unsigned_short [] [])]",
    "descr": "I.read_unsigned_int -> I.read_unsigned_short in: [.assign (.attr (.name I.self) I.requestID) (.method (.name I.inputStream) I.read_unsigned_int [] [])]"
   },
   {
    "file": "Verif/Source/Dis1.lean",
    "within": "IFFData.serialize",
    "old": "    .expr (.method (.name I.outputStream) I.write_unsigned_short [.call I.len [.attr (.name I.self) I.iffData] []] []),\n",
    "new": "",
    "descr": "dropped: .expr (.method (.name I.outputStream) I.write_unsigned_short [.call I.len [.attr (.name I.self) I.iffData] []] []),"
   },
   {
    "file": "Verif/Source/Dis1.lean",
    "within": "IFFData.parse",
    "old": "    .assign (.attr (.name I.self) I.recordLength) (.method (.name I.inputStream) I.read_unsigned_short [] []),\n",
    "new": "",
    "descr": "dropped: .assign (.attr (.name I.self) I.recordLength) (.method (.name I.inputStream) I.read_unsigned_short [] []),"
   },
   {
    "file": "Verif/Source/Dis1.lean",
    "within": "MunitionDescriptor.serialize",
    "old": "    .expr (.method (.name I.outputStream) I.write_unsigned_short [.attr (.name I.self) I.warhead] []),",
    "new": "    .expr (.method (.name I.outputStream) I.write_short [.attr (.name I.self) I.warhead] []),",
    "descr": "I.write_unsigned_short -> I.write_short in: .expr (.method (.name I.outputStream) I.write_unsigned_short [.attr (.name I.self) I.warhead] []),"
   },
   {
    "file": "Verif/Source/Dis1.lean",
    "within": "MunitionDescriptor.parse",
    "old": "    .assign (.attr (.name I.self) I.quantity) (.method (.name I.inputStream) I.read_unsigned_short [] []),",
    "new": "    .assign (.attr (.name I.self) I.quantity) (.method (.name I.inputStream) I.read_short [] []),",
    "descr": "I.read_unsigned_short -> I.read_short in: .assign (.attr (.name I.self) I.quantity) (.method (.name I.inputStream) I.read_unsigned_short [] []),"
   },
   {
    "file": "Verif/Source/Dis1.lean",
    "within": "MinefieldSensorType.serialize",
    "old": "   [.expr (.method (.name I.outputStream) I.write_unsigned_short [.attr (.name I.self) I.sensorType] [])]",
    "new": "   [.expr (.method (.name I.outputStream) I.write_short [.attr (.name I.self) I.sensorType] [])]",
    "descr": "I.write_unsigned_short -> I.write_short in: [.expr (.method (.name I.outputStream) I.write_unsigned_short [.attr (.name I.self) I.sensorType] [])]"
   },
   {
    "file": "Verif/Source/Dis1.lean",
    "within": "MinefieldSensorType.parse",
    "old": "   [.assign (.attr (.name I.self) I.sensorType) (.method (.name I.inputStream) I.read_unsigned_short [] [])]",
    "new": "   [.assign (.attr (.name I.self) I.sensorType) (.method (.name I.inputStream) I.read_short [] [])]",
    "descr": "I.read_unsigned_short -> I.read_short in: [.assign (.attr (.name I.self) I.sensorType) (.method (.name I.inputStream) I.read_unsigned_short [] [])]"
   },
   {
    "file": "Verif/Source/Dis1.lean",
    "within": "GroupID.serialize",
    "old": "    .expr (.method (.name I.outputStream) I.write_unsigned_short [.attr (.name I.self) I.groupNumber] [])]",
    "new": "    .expr (.method (.name I.outputStream) I.write_short [.attr (.name I.self) I.groupNumber] [])]",
    "descr": "I.write_unsigned_short -> I.write_short in: .expr (.method (.name I.outputStream) I.write_unsigned_short [.attr (.name I.self) I.groupNumber] [])]"
   },
   {
    "file": "Verif/Source/Dis1.lean",
    "within": "GroupID.parse",
    "old": "    .assign (.attr (.name I.self) I.groupNumber) (.method (.name I.inputStream) I.read_unsigned_short [] [])]",
    "new": "    .assign (.attr (.name I.self) I.groupNumber) (.method (.name I.inputStream) I.read_short [] [])]",
    "descr": "I.read_unsigned_short -> I.read_short in: .assign (.attr (.name I.self) I.groupNumber) (.method (.name I.inputStream) I.read_unsigned_short [] [])]"
   },
   {
    "file": "Verif/Source/Dis1.lean",
    "within": "LayerHeader.serialize",
    "old": "    .expr (.method (.name I.outputStream) I.write_unsigned_short [.attr (.name I.self) I.length] [])]",
    "new": "    .expr (.method (.name I.outputStream) I.write_short [.attr (.name I.self) I.length] [])]",
    "descr": "I.write_unsigned_short -> I.write_short in: .expr (.method (.name I.outputStream) I.write_unsigned_short [.attr (.name I.self) I.length] [])]"
   },
   {
    "file": "Verif/Source/Dis1.lean",
    "within": "LayerHeader.parse",
    "old": "   [.assign (.attr (.name I.self) I.layerNumber) (.method (.name I.inputStream) I.read_unsigned_byte [] []),",
    "new": "   [.assign (.attr (.name I.self) I.layerNumber) (.method (.name I.inputStream) I.read_byte [] []),",
    "descr": "I.read_unsigned_byte -> I.read_byte in: [.assign (.attr (.name I.self) I.layerNumber) (.method (.name I.inputStream) I.read_unsigned_byte [] []),"
   },
   {
    "file": "Verif/Source/Dis1.lean",
    "within": "UnsignedDISInteger.serialize",
    "old": "   [.expr (.method (.name I.outputStream) I.write_unsigned_int [.attr (.name I.self) I.val] [])]",
    "new": "   [.expr (.method (.name I.outputStream) I.write_unsigned_short [.attr (.name I.self) I.val] [])]",
    "descr": "I.write_unsigned_int -> I.write_unsigned_short in: [.expr (.method (.name I.outputStream) I.write_unsigned_int [.attr (.name I.self) I.val] [])]"
   },
   {
    "file": "Verif/Source/Dis1.lean",
    "within": "UnsignedDISInteger.parse",
    "old": "   [.assign (.attr (.name I.self) I.val) (.method (.name I.inputStream) I.read_unsigned_int [] [])]",
    "new": "   [.assign (.attr (.name I.self) I.val) (.method (.name I.inputStream) I.read_unsigned_short [] [])]",
    "descr": "I.read_unsigned_int -> I.read_unsigned_short in: [.assign (.attr (.name I.self) I.val) (.method (.name I.inputStream) I.read_unsigned_int [] [])]"
   },
   {
    "file": "Verif/Source/Dis1.lean",
    "within": "DeadReckoningParameters.serialize",
    "old": "   [.expr (.method (.name I.outputStream) I.write_unsigned_byte [.attr (.name I.self) I.deadReckoningAlgorithm] []),",
    "new": "   [.expr (.method (.name I.outputStream) I.write_byte [.attr (.name I.self) I.deadReckoningAlgorithm] []),",
    "descr": "I.write_unsigned_byte -> I.write_byte in: [.expr (.method (.name I.outputStream) I.write_unsigned_byte [.attr (.name I.self) I.deadReckoningAlgorithm] []),"
   },
   {
    "file": "Verif/Source/Dis1.lean",
    "within": "DeadReckoningParameters.parse",
    "old": "    .expr (.method (.attr (.name I.self) I.entityLinearAcceleration) I.parse [.name I.inputStream] []),\n",
    "new": "",
    "descr": "dropped: .expr (.method (.attr (.name I.self) I.entityLinearAcceleration) I.parse [.name I.inputStream] []),"
   },
   {
    "file": "Verif/Source/Dis1.lean",
    "within": "ProtocolMode.serialize",
    "old": "   [.expr (.method (.name I.outputStream) I.write_unsigned_short [.attr (.name I.self) I.protocolMode] [])]",
    "new": "   [.expr (.method (.name I.outputStream) I.write_short [.attr (.name I.self) I.protocolMode] [])]",
    "descr": "I.write_unsigned_short -> I.write_short in: [.expr (.method (.name I.outputStream) I.write_unsigned_short [.attr (.name I.self) I.protocolMode] [])]"
   },
   {
    "file": "Verif/Source/Dis1.lean",
    "within": "ProtocolMode.parse",
    "old": "   [.assign (.attr (.name I.self) I.protocolMode) (.method (.name I.inputStream) I.read_unsigned_short [] [])]",
    "new": "   [.assign (.attr (.name I.self) I.protocolMode) (.method (.name I.inputStream) I.read_short [] [])]",
    "descr": "I.read_unsigned_short -> I.read_short in: [.assign (.attr (.name I.self) I.protocolMode) (.method (.name I.inputStream) I.read_unsigned_short [] [])]"
   },
   {
    "file": "Verif/Source/Dis1.lean",
    "within": "AngleDeception.serialize",
    "old": "    .expr (.method (.name I.outputStream) I.write_unsigned_int [.attr (.name I.self) I.padding3] [])]",
    "new": "    .expr (.method (.name I.outputStream) I.write_unsigned_short [.attr (.name I.self) I.padding3] [])]",
    "descr": "I.write_unsigned_int -> I.write_unsigned_short in: .expr (.method (.name I.outputStream) I.write_unsigned_int [.attr (.name I.self) I.padding3] [])]"
   },
   {
    "file": "Verif/Source/Dis1.lean",
    "within": "AngleDeception.parse",
    "old": "    .assign (.attr (.name I.self) I.elevationWidth) (.method (.name I.inputStream) I.read_float [] []),\n",
    "new": "",
    "descr": "dropped: .assign (.attr (.name I.self) I.elevationWidth) (.method (.name I.inputStream) I.read_float [] []),"
   },
   {
    "file": "Verif/Source/Dis1.lean",
    "within": "EntityAssociation.serialize",
    "old": "    .expr (.method (.name I.outputStream) I.write_unsigned_byte [.attr (.name I.self) I.groupMemberType] []),",
    "new": "    .expr (.method (.name I.outputStream) I.write_byte [.attr (.name I.self) I.groupMemberType] []),",
    "descr": "I.write_unsigned_byte -> I.write_byte in: .expr (.method (.name I.outputStream) I.write_unsigned_byte [.attr (.name I.self) I.groupMemberType] []),"
   },
   {
    "file": "Verif/Source/Dis1.lean",
    "within": "EntityAssociation.parse",
    "old": "    .assign (.attr (.name I.self) I.associationType) (.method (.name I.inputStream) I.read_unsigned_byte [] []),",
    "new": "    .assign (.attr (.name I.self) I.associationType) (.method (.name I.inputStream) I.read_byte [] []),",
    "descr": "I.read_unsigned_byte -> I.read_byte in: .assign (.attr (.name I.self) I.associationType) (.method (.name I.inputStream) I.read_unsigned_byte [] []),"
   },
   {
    "file": "Verif/Source/Dis1.lean",
    "within": "FalseTargetsAttribute.serialize",
    "old": "    .expr (.method (.name I.outputStream) I.write_float [.attr (.name I.self) I.walkSpeed] []),\n",
    "new": "",
    "descr": "dropped: .expr (.method (.name I.outputStream) I.write_float [.attr (.name I.self) I.walkSpeed] []),"
   },
   {
    "file": "Verif/Source/Dis1.lean",
    "within": "FalseTargetsAttribute.parse",
    "old": "    .assign (.attr (.name I.self) I.beamNumber) (.method (.name I.inputStream) I.read_unsigned_byte [] []),\n",
    "new": "",
    "descr": "dropped: .assign (.attr (.name I.self) I.beamNumber) (.method (.name I.inputStream) I.read_unsigned_byte [] []),"
   },
   {
    "file": "Verif/Source/Dis1.lean",
    "within": "MinefieldIdentifier.serialize",
    "old": "    .expr (.method (.name I.outputStream) I.write_unsigned_short [.attr (.name I.self) I.minefieldNumber] [])]",
    "new": "    .expr (.method (.name I.outputStream) I.write_short [.attr (.name I.self) I.minefieldNumber] [])]",
    "descr": "I.write_unsigned_short -> I.write_short in: .expr (.method (.name I.outputStream) I.write_unsigned_short [.attr (.name I.self) I.minefieldNumber] [])]"
   },
   {
    "file": "Verif/Source/Dis1.lean",
    "within": "MinefieldIdentifier.parse",
    "old": "    .assign (.attr (.name I.self) I.minefieldNumber) (.method (.name I.inputStream) I.read_unsigned_short [] [])]",
    "new": "    .assign (.attr (.name I.self) I.minefieldNumber) (.method (.name I.inputStream) I.read_short [] [])]",
    "descr": "I.read_unsigned_short -> I.read_short in: .assign (.attr (.name I.self) I.minefieldNumber) (.method (.name I.inputStream) I.read_unsigned_short [] [])]"
   },
   {
    "file": "Verif/Source/Dis1.lean",
    "within": "RadioType.serialize",
    "old": "    .expr (.method (.name I.outputStream) I.write_unsigned_short [.attr (.name I.self) I.country] []),",
    "new": "    .expr (.method (.name I.outputStream) I.write_short [.attr (.name I.self) I.country] []),",
    "descr": "I.write_unsigned_short -> I.write_short in: .expr (.method (.name I.outputStream) I.write_unsigned_short [.attr (.name I.self) I.country] []),"
   },
   {
    "file": "Verif/Source/Dis1.lean",
    "within": "RadioType.parse",
    "old": "   [.assign (.attr (.name I.self) I.entityKind) (.method (.name I.inputStream) I.read_unsigned_byte [] []),",
    "new": "   [.assign (.attr (.name I.self) I.entityKind) (.method (.name I.inputStream) I.read_byte [] []),",
    "descr": "I.read_unsigned_byte -> I.read_byte in: [.assign (.attr (.name I.self) I.entityKind) (.method (.name I.inputStream) I.read_unsigned_byte [] []),"
   },
   {
    "file": "Verif/Source/Dis1.lean",
    "within": "NamedLocationIdentification.serialize",
    "old": "    .expr (.method (.name I.outputStream) I.write_unsigned_short [.attr (.name I.self) I.stationNumber] [])]",
    "new": "    .expr (.method (.name I.outputStream) I.write_short [.attr (.name I.self) I.stationNumber] [])]",
    "descr": "I.write_unsigned_short -> I.write_short in: .expr (.method (.name I.outputStream) I.write_unsigned_short [.attr (.name I.self) I.stationNumber] [])]"
   },
   {
    "file": "Verif/Source/Dis1.lean",
    "within": "NamedLocationIdentification.parse",
    "old": "   [.assign (.attr (.name I.self) I.stationName) (.method (.name I.inputStream) I.read_unsigned_short [] []),",
    "new": "   [.assign (.attr (.name I.self) I.stationName) (.method (.name I.inputStream) I.read_short [] []),",
    "descr": "I.read_unsigned_short -> I.read_short in: [.assign (.attr (.name I.self) I.stationName) (.method (.name I.inputStream) I.read_unsigned_short [] []),"
   },
   {
    "file": "Verif/Source/Dis1.lean",
    "within": "IFFDataSpecification.serialize",
    "old": "   [.expr (.method (.name I.outputStream) I.write_unsigned_short [.attr (.name I.self) I.numberOfIFFDataRecords] []),",
    "new": "   [.expr (.method (.name I.outputStream) I.write_short [.attr (.name I.self) I.numberOfIFFDataRecords] []),",
    "descr": "I.write_unsigned_short -> I.write_short in: [.expr (.method (.name I.outputStream) I.write_unsigned_short [.attr (.name I.self) I.numberOfIFFDataRecords] []),"
   },
   {
    "file": "Verif/Source/Dis1.lean",
    "within": "IFFDataSpecification.parse",
    "old": "   [.assign (.name I.numberOfIFFDataRecords) (.method (.name I.inputStream) I.read_unsigned_short [] []),",
    "new": "   [.assign (.name I.numberOfIFFDataRecords) (.method (.name I.inputStream) I.read_short [] []),",
    "descr": "I.read_unsigned_short -> I.read_short in: [.assign (.name I.numberOfIFFDataRecords) (.method (.name I.inputStream) I.read_unsigned_short [] []),"
   },
   {
    "file": "Verif/Source/Dis1.lean",
    "within": "OwnershipStatus.serialize",
    "old": "    .expr (.method (.name I.outputStream) I.write_unsigned_byte [.attr (.name I.self) I.padding] [])]",
    "new": "    .expr (.method (.name I.outputStream) I.write_byte [.attr (.name I.self) I.padding] [])]",
    "descr": "I.write_unsigned_byte -> I.write_byte in: .expr (.method (.name I.outputStream) I.write_unsigned_byte [.attr (.name I.self) I.padding] [])]"
   },
   {
    "file": "Verif/Source/Dis1.lean",
    "within": "OwnershipStatus.parse",
    "old": "    .assign (.attr (.name I.self) I.ownershipStatus) (.method (.name I.inputStream) I.read_unsigned_byte [] []),\n",
    "new": "",
    "descr": "dropped: .assign (.attr (.name I.self) I.ownershipStatus) (.method (.name I.inputStream) I.read_unsigned_byte [] []),"
   },
   {
    "file": "Verif/Source/Dis1.lean",
    "within": "AttachedParts.serialize",
    "old": "   [.expr (.method (.name I.outputStream) I.write_unsigned_byte [.attr (.name I.self) I.recordType] []),",
    "new": "   [.expr (.method (.name I.outputStream) I.write_byte [.attr (.name I.self) I.recordType] []),",
    "descr": "I.write_unsigned_byte -> I.write_byte in: [.expr (.method (.name I.outputStream) I.write_unsigned_byte [.attr (.name I.self) I.recordType] []),"
   },
   {
    "file": "Verif/Source/Dis1.lean",
    "within": "AttachedParts.parse",
    "old": "    .assign (.attr (.name I.self) I.detachedIndicator) (.method (.name I.inputStream) I.read_unsigned_byte [] []),\n    .assign (.attr (.name I.self) I.partAttachedTo) (.method (.name I.inputStream) I.read_unsigned_short [] []),\n",
    "new": "    .assign (.attr (.name I.self) I.partAttachedTo) (.method (.name I.inputStream) I.read_unsigned_short [] []),\n    .assign (.attr (.name I.self) I.detachedIndicator) (.method (.name I.inputStream) I.read_unsigned_byte [] []),\n",
    "descr": "swapped: .assign (.attr (.name I.self) I.detachedIndicator) (.method (.name I.inputStream) I.read_unsigned_byte [] []), / .assign (.attr (.name I.self) I.partAttachedTo) (.method (.name I.inputStream) I.read_unsigned_short [] []),"
   },
   {
    "file": "Verif/Source/Dis1.lean",
    "within": "Attribute.serialize",
    "old": "    .expr (.method (.name I.outputStream) I.write_unsigned_short [.attr (.name I.self) I.recordLength] []),\n",
    "new": "",
    "descr": "dropped: .expr (.method (.name I.outputStream) I.write_unsigned_short [.attr (.name I.self) I.recordLength] []),"
   },
   {
    "file": "Verif/Source/Dis1.lean",
    "within": "Attribute.parse",
    "old": "    .assign (.attr (.name I.self) I.recordLength) (.method (.name I.inputStream) I.read_unsigned_short [] []),",
    "new": "    .assign (.attr (.name I.self) I.recordLength) (.method (.name I.inputStream) I.read_short [] []),",
    "descr": "I.read_unsigned_short -> I.read_short in: .assign (.attr (.name I.self) I.recordLength) (.method (.name I.inputStream) I.read_unsigned_short [] []),"
   },
   {
    "file": "Verif/Source/Dis1.lean",
    "within": "RecordQuerySpecification.serialize",
    "old": "      [.expr (.method (.name I.outputStream) I.write_unsigned_int [.name I.anObj] [])]]",
    "new": "      [.expr (.method (.name I.outputStream) I.write_unsigned_short [.name I.anObj] [])]]",
    "descr": "I.write_unsigned_int -> I.write_unsigned_short in: [.expr (.method (.name I.outputStream) I.write_unsigned_int [.name I.anObj] [])]]"
   },
   {
    "file": "Verif/Source/Dis1.lean",
    "within": "RecordQuerySpecification.parse",
    "old": "    .for I.idx (.call I.range [.int 0, .name I.numberOfRecords] [])",
    "new": "    .for I.idx (.call I.range [.int 1, .name I.numberOfRecords] [])",
    "descr": ".int 0 -> .int 1 in: .for I.idx (.call I.range [.int 0, .name I.numberOfRecords] [])"
   },
   {
    "file": "Verif/Source/Dis1.lean",
    "within": "ArticulatedParts.serialize",
    "old": "    .expr (.method (.name I.outputStream) I.write_unsigned_byte [.attr (.name I.self) I.changeIndicator] []),\n    .expr (.method (.name I.outputStream) I.write_unsigned_short [.attr (.name I.self) I.partAttachedTo] []),\n",
    "new": "    .expr (.method (.name I.outputStream) I.write_unsigned_short [.attr (.name I.self) I.partAttachedTo] []),\n    .expr (.method (.name I.outputStream) I.write_unsigned_byte [.attr (.name I.self) I.changeIndicator] []),\n",
    "descr": "swapped: .expr (.method (.name I.outputStream) I.write_unsigned_byte [.attr (.name I.self) I.changeIndicator] []), / .expr (.method (.name I.outputStream) I.write_unsigned_short [.attr (.name I.self) I.partAttachedTo] []),"
   },
   {
    "file": "Verif/Source/Dis1.lean",
    "within": "ArticulatedParts.parse",
    "old": "    .assign (.attr (.name I.self) I.parameterType) (.method (.name I.inputStream) I.read_unsigned_int [] []),\n",
    "new": "",
    "descr": "dropped: .assign (.attr (.name I.self) I.parameterType) (.method (.name I.inputStream) I.read_unsigned_int [] []),"
   },
   {
    "file": "Verif/Source/Dis1.lean",
    "within": "ObjectType.serialize",
    "old": "    .expr (.method (.name I.outputStream) I.write_unsigned_byte [.attr (.name I.self) I.objectKind] []),",
    "new": "    .expr (.method (.name I.outputStream) I.write_byte [.attr (.name I.self) I.objectKind] []),",
    "descr": "I.write_unsigned_byte -> I.write_byte in: .expr (.method (.name I.outputStream) I.write_unsigned_byte [.attr (.name I.self) I.objectKind] []),"
   },
   {
    "file": "Verif/Source/Dis1.lean",
    "within": "ObjectType.parse",
    "old": "    .assign (.attr (.name I.self) I.objectKind) (.method (.name I.inputStream) I.read_unsigned_byte [] []),",
    "new": "    .assign (.attr (.name I.self) I.objectKind) (.method (.name I.inputStream) I.read_byte [] []),",
    "descr": "I.read_unsigned_byte -> I.read_byte in: .assign (.attr (.name I.self) I.objectKind) (.method (.name I.inputStream) I.read_unsigned_byte [] []),"
   },
   {
    "file": "Verif/Source/Dis1.lean",
    "within": "Association.serialize",
    "old": "    .expr (.method (.name I.outputStream) I.write_unsigned_byte [.attr (.name I.self) I.padding4] []),\n",
    "new": "",
    "descr": "dropped: .expr (.method (.name I.outputStream) I.write_unsigned_byte [.attr (.name I.self) I.padding4] []),"
   },
   {
    "file": "Verif/Source/Dis1.lean",
    "within": "Association.parse",
    "old": "    .assign (.attr (.name I.self) I.padding4) (.method (.name I.inputStream) I.read_unsigned_byte [] []),\n",
    "new": "",
    "descr": "dropped: .assign (.attr (.name I.self) I.padding4) (.method (.name I.inputStream) I.read_unsigned_byte [] []),"
   },
   {
    "file": "Verif/Source/Dis1.lean",
    "within": "RecordSpecificationElement.serialize",
    "old": "   [.expr (.method (.name I.outputStream) I.write_unsigned_int [.attr (.name I.self) I.recordID] []),",
    "new": "   [.expr (.method (.name I.outputStream) I.write_unsigned_short [.attr (.name I.self) I.recordID] []),",
    "descr": "I.write_unsigned_int -> I.write_unsigned_short in: [.expr (.method (.name I.outputStream) I.write_unsigned_int [.attr (.name I.self) I.recordID] []),"
   },
   {
    "file": "Verif/Source/Dis1.lean",
    "within": "RecordSpecificationElement.parse",
    "old": "    .assign (.attr (.name I.self) I.recordCount) (.method (.name I.inputStream) I.read_unsigned_short [] []),\n    .assign (.attr (.name I.self) I.recordValues) (.method (.name I.inputStream) I.read_unsigned_short [] []),\n",
    "new": "    .assign (.attr (.name I.self) I.recordValues) (.method (.name I.inputStream) I.read_unsigned_short [] []),\n    .assign (.attr (.name I.self) I.recordCount) (.method (.name I.inputStream) I.read_unsigned_short [] []),\n",
    "descr": "swapped: .assign (.attr (.name I.self) I.recordCount) (.method (.name I.inputStream) I.read_unsigned_short [] []), / .assign (.attr (.name I.self) I.recordValues) (.method (.name I.inputStream) I.read_unsigned_short [] []),"
   },
   {
    "file": "Verif/Source/Dis1.lean",
    "within": "ObjectIdentifier.serialize",
    "old": "    .expr (.method (.name I.outputStream) I.write_unsigned_short [.attr (.name I.self) I.objectNumber] [])]",
    "new": "    .expr (.method (.name I.outputStream) I.write_short [.attr (.name I.self) I.objectNumber] [])]",
    "descr": "I.write_unsigned_short -> I.write_short in: .expr (.method (.name I.outputStream) I.write_unsigned_short [.attr (.name I.self) I.objectNumber] [])]"
   },
   {
    "file": "Verif/Source/Dis1.lean",
    "within": "ObjectIdentifier.parse",
    "old": "    .assign (.attr (.name I.self) I.objectNumber) (.method (.name I.inputStream) I.read_unsigned_short [] [])]",
    "new": "    .assign (.attr (.name I.self) I.objectNumber) (.method (.name I.inputStream) I.read_short [] [])]",
    "descr": "I.read_unsigned_short -> I.read_short in: .assign (.attr (.name I.self) I.objectNumber) (.method (.name I.inputStream) I.read_unsigned_short [] [])]"
   },
   {
    "file": "Verif/Source/Dis1.lean",
    "within": "AggregateIdentifier.serialize",
    "old": "    .expr (.method (.name I.outputStream) I.write_unsigned_short [.attr (.name I.self) I.aggregateID] [])]",
    "new": "    .expr (.method (.name I.outputStream) I.write_short [.attr (.name I.self) I.aggregateID] [])]",
    "descr": "I.write_unsigned_short -> I.write_short in: .expr (.method (.name I.outputStream) I.write_unsigned_short [.attr (.name I.self) I.aggregateID] [])]"
   },
   {
    "file": "Verif/Source/Dis1.lean",
    "within": "AggregateIdentifier.parse",
    "old": "    .assign (.attr (.name I.self) I.aggregateID) (.method (.name I.inputStream) I.read_unsigned_short [] [])]",
    "new": "    .assign (.attr (.name I.self) I.aggregateID) (.method (.name I.inputStream) I.read_short [] [])]",
    "descr": "I.read_unsigned_short -> I.read_short in: .assign (.attr (.name I.self) I.aggregateID) (.method (.name I.inputStream) I.read_unsigned_short [] [])]"
   },
   {
    "file": "Verif/Source/Dis1.lean",
    "within": "FixedDatum.serialize",
    "old": "   [.expr (.method (.name I.outputStream) I.write_unsigned_int [.attr (.name I.self) I.fixedDatumID] []),",
    "new": "   [.expr (.method (.name I.outputStream) I.write_unsigned_short [.attr (.name I.self) I.fixedDatumID] []),",
    "descr": "I.write_unsigned_int -> I.write_unsigned_short in: [.expr (.method (.name I.outputStream) I.write_unsigned_int [.attr (.name I.self) I.fixedDatumID] []),"
   },
   {
    "file": "Verif/Source/Dis1.lean",
    "within": "FixedDatum.parse",
    "old": "   [.assign (.attr (.name I.self) I.fixedDatumID) (.method (.name I.inputStream) I.read_unsigned_int [] []),",
    "new": "   [.assign (.attr (.name I.self) I.fixedDatumID) (.method (.name I.inputStream) I.read_unsigned_short [] []),",
    "descr": "I.read_unsigned_int -> I.read_unsigned_short in: [.assign (.attr (.name I.self) I.fixedDatumID) (.method (.name I.inputStream) I.read_unsigned_int [] []),"
   },
   {
    "file": "Verif/Source/Dis1.lean",
    "within": "VariableParameter.serialize",
    "old": "   [.expr (.method (.name I.outputStream) I.write_unsigned_byte [.attr (.name I.self) I.recordType] []),",
    "new": "   [.expr (.method (.name I.outputStream) I.write_byte [.attr (.name I.self) I.recordType] []),",
    "descr": "I.write_unsigned_byte -> I.write_byte in: [.expr (.method (.name I.outputStream) I.write_unsigned_byte [.attr (.name I.self) I.recordType] []),"
   },
   {
    "file": "Verif/Source/Dis1.lean",
    "within": "VariableParameter.parse",
    "old": "    .assign (.attr (.name I.self) I.variableParameterFields1) (.method (.name I.inputStream) I.read_double [] []),\n    .assign (.attr (.name I.self) I.variableParameterFields2) (.method (.name I.inputStream) I.read_unsigned_int [] []),\n",
    "new": "    .assign (.attr (.name I.self) I.variableParameterFields2) (.method (.name I.inputStream) I.read_unsigned_int [] []),\n    .assign (.attr (.name I.self) I.variableParameterFields1) (.method (.name I.inputStream) I.read_double [] []),\n",
    "descr": "swapped: .assign (.attr (.name I.self) I.variableParameterFields1) (.method (.name I.inputStream) I.read_double [] []), / .assign (.attr (.name I.self) I.variableParameterFields2) (.method (.name I.inputStream) I.read_unsigned_int [] []),"
   },
   {
    "file": "Verif/Source/Dis1.lean",
    "within": "LiveSimulationAddress.serialize",
    "old": "    .expr (.method (.name I.outputStream) I.write_unsigned_byte [.attr (.name I.self) I.liveApplicationNumber] [])]",
    "new": "    .expr (.method (.name I.outputStream) I.write_byte [.attr (.name I.self) I.liveApplicationNumber] [])]",
    "descr": "I.write_unsigned_byte -> I.write_byte in: .expr (.method (.name I.outputStream) I.write_unsigned_byte [.attr (.name I.self) I.liveApplicationNumber] [])]"
   },
   {
    "file": "Verif/Source/Dis1.lean",
    "within": "LiveSimulationAddress.parse",
    "old": "   [.assign (.attr (.name I.self) I.liveSiteNumber) (.method (.name I.inputStream) I.read_unsigned_byte [] []),",
    "new": "   [.assign (.attr (.name I.self) I.liveSiteNumber) (.method (.name I.inputStream) I.read_byte [] []),",
    "descr": "I.read_unsigned_byte -> I.read_byte in: [.assign (.attr (.name I.self) I.liveSiteNumber) (.method (.name I.inputStream) I.read_unsigned_byte [] []),"
   },
   {
    "file": "Verif/Source/Dis1.lean",
    "within": "EntityMarking.serialize",
    "old": "   [.expr (.method (.name I.outputStream) I.write_unsigned_byte [.attr (.name I.self) I.characterSet] []),",
    "new": "   [.expr (.method (.name I.outputStream) I.write_byte [.attr (.name I.self) I.characterSet] []),",
    "descr": "I.write_unsigned_byte -> I.write_byte in: [.expr (.method (.name I.outputStream) I.write_unsigned_byte [.attr (.name I.self) I.characterSet] []),"
   },
   {
    "file": "Verif/Source/Dis1.lean",
    "within": "EntityMarking.parse",
    "old": "    .for I.idx (.call I.range [.int 0, .int 11] [])",
    "new": "    .for I.idx (.call I.range [.int 1, .int 11] [])",
    "descr": ".int 0 -> .int 1 in: .for I.idx (.call I.range [.int 0, .int 11] [])"
   },
   {
    "file": "Verif/Source/Dis1.lean",
    "within": "UAFundamentalParameter.serialize",
    "old": "   [.expr (.method (.name I.outputStream) I.write_unsigned_short [.attr (.name I.self) I.activeEmissionParameterIndex] []),",
    "new": "   [.expr (.method (.name I.outputStream) I.write_short [.attr (.name I.self) I.activeEmissionParameterIndex] []),",
    "descr": "I.write_unsigned_short -> I.write_short in: [.expr (.method (.name I.outputStream) I.write_unsigned_short [.attr (.name I.self) I.activeEmissionParameterIndex] []),"
   },
   {
    "file": "Verif/Source/Dis1.lean",
    "within": "UAFundamentalParameter.parse",
    "old": "    .assign (.attr (.name I.self) I.scanPattern) (.method (.name I.inputStream) I.read_unsigned_short [] []),\n    .assign (.attr (.name I.self) I.beamCenterAzimuthHorizontal) (.method (.name I.inputStream) I.read_float [] []),\n",
    "new": "    .assign (.attr (.name I.self) I.beamCenterAzimuthHorizontal) (.method (.name I.inputStream) I.read_float [] []),\n    .assign (.attr (.name I.self) I.scanPattern) (.method (.name I.inputStream) I.read_unsigned_short [] []),\n",
    "descr": "swapped: .assign (.attr (.name I.self) I.scanPattern) (.method (.name I.inputStream) I.read_unsigned_short [] []), / .assign (.attr (.name I.self) I.beamCenterAzimuthHorizontal) (.method (.name I.inputStream) I.read_float [] []),"
   },
   {
    "file": "Verif/Source/Dis1.lean",
    "within": "ExplosionDescriptor.serialize",
    "old": "    .expr (.method (.name I.outputStream) I.write_unsigned_short [.attr (.name I.self) I.explosiveMaterial] []),\n",
    "new": "",
    "descr": "dropped: .expr (.method (.name I.outputStream) I.write_unsigned_short [.attr (.name I.self) I.explosiveMaterial] []),"
   },
   {
    "file": "Verif/Source/Dis1.lean",
    "within": "ExplosionDescriptor.parse",
    "old": "    .assign (.attr (.name I.self) I.explosiveMaterial) (.method (.name I.inputStream) I.read_unsigned_short [] []),",
    "new": "    .assign (.attr (.name I.self) I.explosiveMaterial) (.method (.name I.inputStream) I.read_short [] []),",
    "descr": "I.read_unsigned_short -> I.read_short in: .assign (.attr (.name I.self) I.explosiveMaterial) (.method (.name I.inputStream) I.read_unsigned_short [] []),"
   },
   {
    "file": "Verif/Source/Dis1.lean",
    "within": "ClockTime.serialize",
    "old": "    .expr (.method (.name I.outputStream) I.write_unsigned_int [.attr (.name I.self) I.timePastHour] [])]",
    "new": "    .expr (.method (.name I.outputStream) I.write_unsigned_short [.attr (.name I.self) I.timePastHour] [])]",
    "descr": "I.write_unsigned_int -> I.write_unsigned_short in: .expr (.method (.name I.outputStream) I.write_unsigned_int [.attr (.name I.self) I.timePastHour] [])]"
   },
   {
    "file": "Verif/Source/Dis1.lean",
    "within": "ClockTime.parse",
    "old": "    .assign (.attr (.name I.self) I.timePastHour) (.method (.name I.inputStream) I.read_unsigned_int [] [])]",
    "new": "    .assign (.attr (.name I.self) I.timePastHour) (.method (.name I.inputStream) I.read_unsigned_short [] [])]",
    "descr": "I.read_unsigned_int -> I.read_unsigned_short in: .assign (.attr (.name I.self) I.timePastHour) (.method (.name I.inputStream) I.read_unsigned_int [] [])]"
   },
   {
    "file": "Verif/Source/Dis1.lean",
    "within": "SecondaryOperationalData.serialize",
    "old": "    .expr (.method (.name I.outputStream) I.write_unsigned_short [.attr (.name I.self) I.numberOfIFFFundamentalParameterRecords] [])]",
    "new": "    .expr (.method (.name I.outputStream) I.write_short [.attr (.name I.self) I.numberOfIFFFundamentalParameterRecords] [])]",
    "descr": "I.write_unsigned_short -> I.write_short in: .expr (.method (.name I.outputStream) I.write_unsigned_short [.attr (.name I.self) I.numberOfIFFFundamentalParameterReco"
   },
   {
    "file": "Verif/Source/Dis1.lean",
    "within": "SecondaryOperationalData.parse",
    "old": "   [.assign (.attr (.name I.self) I.operationalData1) (.method (.name I.inputStream) I.read_unsigned_byte [] []),",
    "new": "   [.assign (.attr (.name I.self) I.operationalData1) (.method (.name I.inputStream) I.read_byte [] []),",
    "descr": "I.read_unsigned_byte -> I.read_byte in: [.assign (.attr (.name I.self) I.operationalData1) (.method (.name I.inputStream) I.read_unsigned_byte [] []),"
   },
   {
    "file": "Verif/Source/Dis1.lean",
    "within": "EnvironmentType.serialize",
    "old": "    .expr (.method (.name I.outputStream) I.write_unsigned_byte [.attr (.name I.self) I.specific] []),",
    "new": "    .expr (.method (.name I.outputStream) I.write_byte [.attr (.name I.self) I.specific] []),",
    "descr": "I.write_unsigned_byte -> I.write_byte in: .expr (.method (.name I.outputStream) I.write_unsigned_byte [.attr (.name I.self) I.specific] []),"
   },
   {
    "file": "Verif/Source/Dis1.lean",
    "within": "EnvironmentType.parse",
    "old": "    .assign (.attr (.name I.self) I.domain) (.method (.name I.inputStream) I.read_unsigned_byte [] []),",
    "new": "    .assign (.attr (.name I.self) I.domain) (.method (.name I.inputStream) I.read_byte [] []),",
    "descr": "I.read_unsigned_byte -> I.read_byte in: .assign (.attr (.name I.self) I.domain) (.method (.name I.inputStream) I.read_unsigned_byte [] []),"
   },
   {
    "file": "Verif/Source/Dis1.lean",
    "within": "TotalRecordSets.serialize",
    "old": "    .expr (.method (.name I.outputStream) I.write_unsigned_short [.attr (.name I.self) I.padding] [])]",
    "new": "    .expr (.method (.name I.outputStream) I.write_short [.attr (.name I.self) I.padding] [])]",
    "descr": "I.write_unsigned_short -> I.write_short in: .expr (.method (.name I.outputStream) I.write_unsigned_short [.attr (.name I.self) I.padding] [])]"
   },
   {
    "file": "Verif/Source/Dis1.lean",
    "within": "TotalRecordSets.parse",
    "old": "   [.assign (.attr (.name I.self) I.totalRecordSets) (.method (.name I.inputStream) I.read_unsigned_short [] []),",
    "new": "   [.assign (.attr (.name I.self) I.totalRecordSets) (.method (.name I.inputStream) I.read_short [] []),",
    "descr": "I.read_unsigned_short -> I.read_short in: [.assign (.attr (.name I.self) I.totalRecordSets) (.method (.name I.inputStream) I.read_unsigned_short [] []),"
   },
   {
    "file": "Verif/Source/Dis1.lean",
    "within": "MineEntityIdentifier.serialize",
    "old": "    .expr (.method (.name I.outputStream) I.write_unsigned_short [.attr (.name I.self) I.mineEntityNumber] [])]",
    "new": "    .expr (.method (.name I.outputStream) I.write_short [.attr (.name I.self) I.mineEntityNumber] [])]",
    "descr": "I.write_unsigned_short -> I.write_short in: .expr (.method (.name I.outputStream) I.write_unsigned_short [.attr (.name I.self) I.mineEntityNumber] [])]"
   },
   {
    "file": "Verif/Source/Dis1.lean",
    "within": "MineEntityIdentifier.parse",
    "old": "    .assign (.attr (.name I.self) I.mineEntityNumber) (.method (.name I.inputStream) I.read_unsigned_short [] [])]",
    "new": "    .assign (.attr (.name I.self) I.mineEntityNumber) (.method (.name I.inputStream) I.read_short [] [])]",
    "descr": "I.read_unsigned_short -> I.read_short in: .assign (.attr (.name I.self) I.mineEntityNumber) (.method (.name I.inputStream) I.read_unsigned_short [] [])]"
   },
   {
    "file": "Verif/Source/Dis1.lean",
    "within": "Relationship.serialize",
    "old": "    .expr (.method (.name I.outputStream) I.write_unsigned_short [.attr (.name I.self) I.position] [])]",
    "new": "    .expr (.method (.name I.outputStream) I.write_short [.attr (.name I.self) I.position] [])]",
    "descr": "I.write_unsigned_short -> I.write_short in: .expr (.method (.name I.outputStream) I.write_unsigned_short [.attr (.name I.self) I.position] [])]"
   },
   {
    "file": "Verif/Source/Dis1.lean",
    "within": "Relationship.parse",
    "old": "   [.assign (.attr (.name I.self) I.nature) (.method (.name I.inputStream) I.read_unsigned_short [] []),",
    "new": "   [.assign (.attr (.name I.self) I.nature) (.method (.name I.inputStream) I.read_short [] []),",
    "descr": "I.read_unsigned_short -> I.read_short in: [.assign (.attr (.name I.self) I.nature) (.method (.name I.inputStream) I.read_unsigned_short [] []),"
   },
   {
    "file": "Verif/Source/Dis1.lean",
    "within": "EEFundamentalParameterData.serialize",
    "old": "    .expr (.method (.name I.outputStream) I.write_float [.attr (.name I.self) I.beamElevationCenter] []),\n",
    "new": "",
    "descr": "dropped: .expr (.method (.name I.outputStream) I.write_float [.attr (.name I.self) I.beamElevationCenter] []),"
   },
   {
    "file": "Verif/Source/Dis1.lean",
    "within": "EEFundamentalParameterData.parse",
    "old": "    .assign (.attr (.name I.self) I.beamElevationSweep) (.method (.name I.inputStream) I.read_float [] []),\n",
    "new": "",
    "descr": "dropped: .assign (.attr (.name I.self) I.beamElevationSweep) (.method (.name I.inputStream) I.read_float [] []),"
   },
   {
    "file": "Verif/Source/Dis1.lean",
    "within": "JammingTechnique.serialize",
    "old": "    .expr (.method (.name I.outputStream) I.write_unsigned_byte [.attr (.name I.self) I.specific] [])]",
    "new": "    .expr (.method (.name I.outputStream) I.write_byte [.attr (.name I.self) I.specific] [])]",
    "descr": "I.write_unsigned_byte -> I.write_byte in: .expr (.method (.name I.outputStream) I.write_unsigned_byte [.attr (.name I.self) I.specific] [])]"
   },
   {
    "file": "Verif/Source/Dis1.lean",
    "within": "JammingTechnique.parse",
    "old": "    .assign (.attr (.name I.self) I.subcategory) (.method (.name I.inputStream) I.read_unsigned_byte [] []),\n",
    "new": "",
    "descr": "dropped: .assign (.attr (.name I.self) I.subcategory) (.method (.name I.inputStream) I.read_unsigned_byte [] []),"
   },
   {
    "file": "Verif/Source/Dis1.lean",
    "within": "DatumSpecification.serialize",
    "old": "   [.expr (.method (.name I.outputStream) I.write_unsigned_int [.attr (.name I.self) I.numberOfFixedDatumRecords] []),",
    "new": "   [.expr (.method (.name I.outputStream) I.write_unsigned_short [.attr (.name I.self) I.numberOfFixedDatumRecords] []),",
    "descr": "I.write_unsigned_int -> I.write_unsigned_short in: [.expr (.method (.name I.outputStream) I.write_unsigned_int [.attr (.name I.self) I.numberOfFixedDatumRecords] []),"
   },
   {
    "file": "Verif/Source/Dis1.lean",
    "within": "DatumSpecification.parse",
    "old": "    .for I.idx (.call I.range [.int 0, .name I.numberOfFixedDatumRecords] [])",
    "new": "    .for I.idx (.call I.range [.int 1, .name I.numberOfFixedDatumRecords] [])",
    "descr": ".int 0 -> .int 1 in: .for I.idx (.call I.range [.int 0, .name I.numberOfFixedDatumRecords] [])"
   },
   {
    "file": "Verif/Source/Dis1.lean",
    "within": "Expendable.serialize",
    "old": "    .expr (.method (.name I.outputStream) I.write_unsigned_int [.attr (.name I.self) I.station] []),\n",
    "new": "",
    "descr": "dropped: .expr (.method (.name I.outputStream) I.write_unsigned_int [.attr (.name I.self) I.station] []),"
   },
   {
    "file": "Verif/Source/Dis1.lean",
    "within": "Expendable.parse",
    "old": "    .assign (.attr (.name I.self) I.station) (.method (.name I.inputStream) I.read_unsigned_int [] []),\n    .assign (.attr (.name I.self) I.quantity) (.method (.name I.inputStream) I.read_unsigned_short [] []),\n",
    "new": "    .assign (.attr (.name I.self) I.quantity) (.method (.name I.inputStream) I.read_unsigned_short [] []),\n    .assign (.attr (.name I.self) I.station) (.method (.name I.inputStream) I.read_unsigned_int [] []),\n",
    "descr": "swapped: .assign (.attr (.name I.self) I.station) (.method (.name I.inputStream) I.read_unsigned_int [] []), / .assign (.attr (.name I.self) I.quantity) (.method (.name I.inputStream) I.read_unsigned_short [] []),"
   },
   {
    "file": "Verif/Source/Dis1.lean",
    "within": "IOCommunicationsNode.serialize",
    "old": "    .expr (.method (.name I.outputStream) I.write_unsigned_byte [.attr (.name I.self) I.padding] []),",
    "new": "    .expr (.method (.name I.outputStream) I.write_byte [.attr (.name I.self) I.padding] []),",
    "descr": "I.write_unsigned_byte -> I.write_byte in: .expr (.method (.name I.outputStream) I.write_unsigned_byte [.attr (.name I.self) I.padding] []),"
   },
   {
    "file": "Verif/Source/Dis1.lean",
    "within": "IOCommunicationsNode.parse",
    "old": "    .assign (.attr (.name I.self) I.communcationsNodeType) (.method (.name I.inputStream) I.read_unsigned_byte [] []),\n",
    "new": "",
    "descr": "dropped: .assign (.attr (.name I.self) I.communcationsNodeType) (.method (.name I.inputStream) I.read_unsigned_byte [] []),"
   },
   {
    "file": "Verif/Source/Dis1.lean",
    "within": "LinearSegmentParameter.serialize",
    "old": "    .expr (.method (.name I.outputStream) I.write_unsigned_int [.attr (.name I.self) I.specificSegmentAppearance] []),",
    "new": "    .expr (.method (.name I.outputStream) I.write_unsigned_short [.attr (.name I.self) I.specificSegmentAppearance] []),",
    "descr": "I.write_unsigned_int -> I.write_unsigned_short in: .expr (.method (.name I.outputStream) I.write_unsigned_int [.attr (.name I.self) I.specificSegmentAppearance] []),"
   },
   {
    "file": "Verif/Source/Dis1.lean",
    "within": "LinearSegmentParameter.parse",
    "old": "    .assign (.attr (.name I.self) I.segmentLength) (.method (.name I.inputStream) I.read_float [] []),\n",
    "new": "",
    "descr": "dropped: .assign (.attr (.name I.self) I.segmentLength) (.method (.name I.inputStream) I.read_float [] []),"
   },
   {
    "file": "Verif/Source/Dis1.lean",
    "within": "SystemIdentifier.serialize",
    "old": "    .expr (.method (.name I.outputStream) I.write_unsigned_short [.attr (.name I.self) I.systemMode] []),\n",
    "new": "",
    "descr": "dropped: .expr (.method (.name I.outputStream) I.write_unsigned_short [.attr (.name I.self) I.systemMode] []),"
   },
   {
    "file": "Verif/Source/Dis1.lean",
    "within": "SystemIdentifier.parse",
    "old": "    .assign (.attr (.name I.self) I.systemMode) (.method (.name I.inputStream) I.read_unsigned_short [] []),\n",
    "new": "",
    "descr": "dropped: .assign (.attr (.name I.self) I.systemMode) (.method (.name I.inputStream) I.read_unsigned_short [] []),"
   },
   {
    "file": "Verif/Source/Dis1.lean",
    "within": "TrackJamData.serialize",
    "old": "    .expr (.method (.name I.outputStream) I.write_unsigned_byte [.attr (.name I.self) I.emitterNumber] []),",
    "new": "    .expr (.method (.name I.outputStream) I.write_byte [.attr (.name I.self) I.emitterNumber] []),",
    "descr": "I.write_unsigned_byte -> I.write_byte in: .expr (.method (.name I.outputStream) I.write_unsigned_byte [.attr (.name I.self) I.emitterNumber] []),"
   },
   {
    "file": "Verif/Source/Dis1.lean",
    "within": "TrackJamData.parse",
    "old": "    .assign (.attr (.name I.self) I.beamNumber) (.method (.name I.inputStream) I.read_unsigned_byte [] [])]",
    "new": "    .assign (.attr (.name I.self) I.beamNumber) (.method (.name I.inputStream) I.read_byte [] [])]",
    "descr": "I.read_unsigned_byte -> I.read_byte in: .assign (.attr (.name I.self) I.beamNumber) (.method (.name I.inputStream) I.read_unsigned_byte [] [])]"
   },
   {
    "file": "Verif/Source/Dis1.lean",
    "within": "AggregateType.serialize",
    "old": "    .expr (.method (.name I.outputStream) I.write_unsigned_short [.attr (.name I.self) I.country] []),\n    .expr (.method (.name I.outputStream) I.write_unsigned_byte [.attr (.name I.self) I.category] []),\n",
    "new": "    .expr (.method (.name I.outputStream) I.write_unsigned_byte [.attr (.name I.self) I.category] []),\n    .expr (.method (.name I.outputStream) I.write_unsigned_short [.attr (.name I.self) I.country] []),\n",
    "descr": "swapped: .expr (.method (.name I.outputStream) I.write_unsigned_short [.attr (.name I.self) I.country] []), / .expr (.method (.name I.outputStream) I.write_unsigned_byte [.attr (.name I.self) I.category] []),"
   },
   {
    "file": "Verif/Source/Dis1.lean",
    "within": "AggregateType.parse",
    "old": "    .assign (.attr (.name I.self) I.category) (.method (.name I.inputStream) I.read_unsigned_byte [] []),\n    .assign (.attr (.name I.self) I.subcategory) (.method (.name I.inputStream) I.read_unsigned_byte [] []),\n",
    "new": "    .assign (.attr (.name I.self) I.subcategory) (.method (.name I.inputStream) I.read_unsigned_byte [] []),\n    .assign (.attr (.name I.self) I.category) (.method (.name I.inputStream) I.read_unsigned_byte [] []),\n",
    "descr": "swapped: .assign (.attr (.name I.self) I.category) (.method (.name I.inputStream) I.read_unsigned_byte [] []), / .assign (.attr (.name I.self) I.subcategory) (.method (.name I.inputStream) I.read_unsigned_byte [] []),"
   },
   {
    "file": "Verif/Source/Dis1.lean",
    "within": "SimulationManagementPduHeader.serialize",
    "old": "    .expr (.method (.attr (.name I.self) I.originatingID) I.serialize [.name I.outputStream] []),\n",
    "new": "",
    "descr": "dropped: .expr (.method (.attr (.name I.self) I.originatingID) I.serialize [.name I.outputStream] []),"
   },
   {
    "file": "Verif/Source/Dis1.lean",
    "within": "SimulationManagementPduHeader.parse",
    "old": "    .expr (.method (.attr (.name I.self) I.originatingID) I.parse [.name I.inputStream] []),\n",
    "new": "",
    "descr": "dropped: .expr (.method (.attr (.name I.self) I.originatingID) I.parse [.name I.inputStream] []),"
   }
  ]
 },
 {
  "id": "U2",
  "definition": "Verif/Source/Dis2.lean",
  "claim": "the classes do what their text says (C77)",
  "expect": [
   "C77"
  ],
  "edits": [
   {
    "file": "Verif/Source/Dis2.lean",
    "within": "BeamData.serialize",
    "old": "    .expr (.method (.name I.outputStream) I.write_float [.attr (.name I.self) I.beamAzimuthSweep] []),\n",
    "new": "",
    "descr": "dropped: .expr (.method (.name I.outputStream) I.write_float [.attr (.name I.self) I.beamAzimuthSweep] []),"
   },
   {
    "file": "Verif/Source/Dis2.lean",
    "within": "BeamData.parse",
    "old": "    .assign (.attr (.name I.self) I.beamElevationCenter) (.method (.name I.inputStream) I.read_float [] []),\n",
    "new": "",
    "descr": "dropped: .assign (.attr (.name I.self) I.beamElevationCenter) (.method (.name I.inputStream) I.read_float [] []),"
   },
   {
    "file": "Verif/Source/Dis2.lean",
    "within": "EngineFuel.serialize",
    "old": "    .expr (.method (.name I.outputStream) I.write_unsigned_byte [.attr (.name I.self) I.fuelLocation] []),",
    "new": "    .expr (.method (.name I.outputStream) I.write_byte [.attr (.name I.self) I.fuelLocation] []),",
    "descr": "I.write_unsigned_byte -> I.write_byte in: .expr (.method (.name I.outputStream) I.write_unsigned_byte [.attr (.name I.self) I.fuelLocation] []),"
   },
   {
    "file": "Verif/Source/Dis2.lean",
    "within": "EngineFuel.parse",
    "old": "   [.assign (.attr (.name I.self) I.fuelQuantity) (.method (.name I.inputStream) I.read_unsigned_int [] []),",
    "new": "   [.assign (.attr (.name I.self) I.fuelQuantity) (.method (.name I.inputStream) I.read_unsigned_short [] []),",
    "descr": "I.read_unsigned_int -> I.read_unsigned_short in: [.assign (.attr (.name I.self) I.fuelQuantity) (.method (.name I.inputStream) I.read_unsigned_int [] []),"
   },
   {
    "file": "Verif/Source/Dis2.lean",
    "within": "IOEffect.serialize",
    "old": "    .expr (.method (.name I.outputStream) I.write_unsigned_byte [.attr (.name I.self) I.ioLinkType] []),",
    "new": "    .expr (.method (.name I.outputStream) I.write_byte [.attr (.name I.self) I.ioLinkType] []),",
    "descr": "I.write_unsigned_byte -> I.write_byte in: .expr (.method (.name I.outputStream) I.write_unsigned_byte [.attr (.name I.self) I.ioLinkType] []),"
   },
   {
    "file": "Verif/Source/Dis2.lean",
    "within": "IOEffect.parse",
    "old": "    .assign (.attr (.name I.self) I.ioProcess) (.method (.name I.inputStream) I.read_unsigned_short [] []),\n",
    "new": "",
    "descr": "dropped: .assign (.attr (.name I.self) I.ioProcess) (.method (.name I.inputStream) I.read_unsigned_short [] []),"
   },
   {
    "file": "Verif/Source/Dis2.lean",
    "within": "SimulationIdentifier.serialize",
    "old": "    .expr (.method (.name I.outputStream) I.write_unsigned_short [.attr (.name I.self) I.referenceNumber] [])]",
    "new": "    .expr (.method (.name I.outputStream) I.write_short [.attr (.name I.self) I.referenceNumber] [])]",
    "descr": "I.write_unsigned_short -> I.write_short in: .expr (.method (.name I.outputStream) I.write_unsigned_short [.attr (.name I.self) I.referenceNumber] [])]"
   },
   {
    "file": "Verif/Source/Dis2.lean",
    "within": "SimulationIdentifier.parse",
    "old": "    .assign (.attr (.name I.self) I.referenceNumber) (.method (.name I.inputStream) I.read_unsigned_short [] [])]",
    "new": "    .assign (.attr (.name I.self) I.referenceNumber) (.method (.name I.inputStream) I.read_short [] [])]",
    "descr": "I.read_unsigned_short -> I.read_short in: .assign (.attr (.name I.self) I.referenceNumber) (.method (.name I.inputStream) I.read_unsigned_short [] [])]"
   },
   {
    "file": "Verif/Source/Dis2.lean",
    "within": "GridAxisDescriptorVariable.serialize",
    "old": "    .expr (.method (.name I.outputStream) I.write_unsigned_byte [.attr (.name I.self) I.interleafFactor] []),",
    "new": "    .expr (.method (.name I.outputStream) I.write_byte [.attr (.name I.self) I.interleafFactor] []),",
    "descr": "I.write_unsigned_byte -> I.write_byte in: .expr (.method (.name I.outputStream) I.write_unsigned_byte [.attr (.name I.self) I.interleafFactor] []),"
   },
   {
    "file": "Verif/Source/Dis2.lean",
    "within": "GridAxisDescriptorVariable.parse",
    "old": "    .assign (.attr (.name I.self) I.interleafFactor) (.method (.name I.inputStream) I.read_unsigned_byte [] []),",
    "new": "    .assign (.attr (.name I.self) I.interleafFactor) (.method (.name I.inputStream) I.read_byte [] []),",
    "descr": "I.read_unsigned_byte -> I.read_byte in: .assign (.attr (.name I.self) I.interleafFactor) (.method (.name I.inputStream) I.read_unsigned_byte [] []),"
   },
   {
    "file": "Verif/Source/Dis2.lean",
    "within": "SilentEntitySystem.serialize",
    "old": "    .expr (.method (.name I.outputStream) I.write_unsigned_short [.attr (.name I.self) I.numberOfAppearanceRecords] []),\n    .expr (.method (.attr (.name I.self) I.entityType) I.serialize [.name I.outputStream] []),\n",
    "new": "    .expr (.method (.attr (.name I.self) I.entityType) I.serialize [.name I.outputStream] []),\n    .expr (.method (.name I.outputStream) I.write_unsigned_short [.attr (.name I.self) I.numberOfAppearanceRecords] []),\n",
    "descr": "swapped: .expr (.method (.name I.outputStream) I.write_unsigned_short [.attr (.name I.self) I.numberOfAppearanceRecords] []), / .expr (.method (.attr (.name I.self) I.entityType) I.serialize [.name I.outputStream] []),"
   },
   {
    "file": "Verif/Source/Dis2.lean",
    "within": "SilentEntitySystem.parse",
    "old": "    .assign (.name I.numberOfAppearanceRecords) (.method (.name I.inputStream) I.read_unsigned_short [] []),",
    "new": "    .assign (.name I.numberOfAppearanceRecords) (.method (.name I.inputStream) I.read_short [] []),",
    "descr": "I.read_unsigned_short -> I.read_short in: .assign (.name I.numberOfAppearanceRecords) (.method (.name I.inputStream) I.read_unsigned_short [] []),"
   },
   {
    "file": "Verif/Source/Dis2.lean",
    "within": "SilentAggregateSystem.serialize",
    "old": "   [.expr (.method (.name I.outputStream) I.write_unsigned_short [.attr (.name I.self) I.numberOfAggregates] []),",
    "new": "   [.expr (.method (.name I.outputStream) I.write_short [.attr (.name I.self) I.numberOfAggregates] []),",
    "descr": "I.write_unsigned_short -> I.write_short in: [.expr (.method (.name I.outputStream) I.write_unsigned_short [.attr (.name I.self) I.numberOfAggregates] []),"
   },
   {
    "file": "Verif/Source/Dis2.lean",
    "within": "SilentAggregateSystem.parse",
    "old": "   [.assign (.attr (.name I.self) I.numberOfAggregates) (.method (.name I.inputStream) I.read_unsigned_short [] []),",
    "new": "   [.assign (.attr (.name I.self) I.numberOfAggregates) (.method (.name I.inputStream) I.read_short [] []),",
    "descr": "I.read_unsigned_short -> I.read_short in: [.assign (.attr (.name I.self) I.numberOfAggregates) (.method (.name I.inputStream) I.read_unsigned_short [] []),"
   },
   {
    "file": "Verif/Source/Dis2.lean",
    "within": "BlankingSector.serialize",
    "old": "    .expr (.method (.name I.outputStream) I.write_unsigned_byte [.attr (.name I.self) I.beamNumber] []),\n    .expr (.method (.name I.outputStream) I.write_unsigned_byte [.attr (.name I.self) I.stateIndicator] []),\n",
    "new": "    .expr (.method (.name I.outputStream) I.write_unsigned_byte [.attr (.name I.self) I.stateIndicator] []),\n    .expr (.method (.name I.outputStream) I.write_unsigned_byte [.attr (.name I.self) I.beamNumber] []),\n",
    "descr": "swapped: .expr (.method (.name I.outputStream) I.write_unsigned_byte [.attr (.name I.self) I.beamNumber] []), / .expr (.method (.name I.outputStream) I.write_unsigned_byte [.attr (.name I.self) I.stateIndicator] []),"
   },
   {
    "file": "Verif/Source/Dis2.lean",
    "within": "BlankingSector.parse",
    "old": "    .assign (.attr (.name I.self) I.stateIndicator) (.method (.name I.inputStream) I.read_unsigned_byte [] []),",
    "new": "    .assign (.attr (.name I.self) I.stateIndicator) (.method (.name I.inputStream) I.read_byte [] []),",
    "descr": "I.read_unsigned_byte -> I.read_byte in: .assign (.attr (.name I.self) I.stateIndicator) (.method (.name I.inputStream) I.read_unsigned_byte [] []),"
   },
   {
    "file": "Verif/Source/Dis2.lean",
    "within": "LaunchedMunitionRecord.serialize",
    "old": "    .expr (.method (.attr (.name I.self) I.firingEntityID) I.serialize [.name I.outputStream] []),\n",
    "new": "",
    "descr": "dropped: .expr (.method (.attr (.name I.self) I.firingEntityID) I.serialize [.name I.outputStream] []),"
   },
   {
    "file": "Verif/Source/Dis2.lean",
    "within": "LaunchedMunitionRecord.parse",
    "old": "    .assign (.attr (.name I.self) I.padding3) (.method (.name I.inputStream) I.read_unsigned_short [] []),",
    "new": "    .assign (.attr (.name I.self) I.padding3) (.method (.name I.inputStream) I.read_short [] []),",
    "descr": "I.read_unsigned_short -> I.read_short in: .assign (.attr (.name I.self) I.padding3) (.method (.name I.inputStream) I.read_unsigned_short [] []),"
   },
   {
    "file": "Verif/Source/Dis2.lean",
    "within": "IFFFundamentalParameterData.serialize",
    "old": "      [.expr (.method (.name I.outputStream) I.write_unsigned_byte [.index (.attr (.name I.self) I.systemSpecificData) (.name I.idx)] [])]]",
    "new": "      [.expr (.method (.name I.outputStream) I.write_byte [.index (.attr (.name I.self) I.systemSpecificData) (.name I.idx)] [])]]",
    "descr": "I.write_unsigned_byte -> I.write_byte in: [.expr (.method (.name I.outputStream) I.write_unsigned_byte [.index (.attr (.name I.self) I.systemSpecificData) (.name "
   },
   {
    "file": "Verif/Source/Dis2.lean",
    "within": "IFFFundamentalParameterData.parse",
    "old": "    .assign (.attr (.name I.self) I.frequency) (.method (.name I.inputStream) I.read_float [] []),\n",
    "new": "",
    "descr": "dropped: .assign (.attr (.name I.self) I.frequency) (.method (.name I.inputStream) I.read_float [] []),"
   },
   {
    "file": "Verif/Source/Dis2.lean",
    "within": "FundamentalOperationalData.serialize",
    "old": "    .expr (.method (.name I.outputStream) I.write_unsigned_byte [.attr (.name I.self) I.dataField1] []),\n    .expr (.method (.name I.outputStream) I.write_unsigned_byte [.attr (.name I.self) I.informationLayers] []),\n",
    "new": "    .expr (.method (.name I.outputStream) I.write_unsigned_byte [.attr (.name I.self) I.informationLayers] []),\n    .expr (.method (.name I.outputStream) I.write_unsigned_byte [.attr (.name I.self) I.dataField1] []),\n",
    "descr": "swapped: .expr (.method (.name I.outputStream) I.write_unsigned_byte [.attr (.name I.self) I.dataField1] []), / .expr (.method (.name I.outputStream) I.write_unsigned_byte [.attr (.name I.self) I.informationLayers] []),"
   },
   {
    "file": "Verif/Source/Dis2.lean",
    "within": "FundamentalOperationalData.parse",
    "old": "    .assign (.attr (.name I.self) I.dataField2) (.method (.name I.inputStream) I.read_unsigned_byte [] []),",
    "new": "    .assign (.attr (.name I.self) I.dataField2) (.method (.name I.inputStream) I.read_byte [] []),",
    "descr": "I.read_unsigned_byte -> I.read_byte in: .assign (.attr (.name I.self) I.dataField2) (.method (.name I.inputStream) I.read_unsigned_byte [] []),"
   },
   {
    "file": "Verif/Source/Dis2.lean",
    "within": "IntercomCommunicationsParameters.serialize",
    "old": "   [.expr (.method (.name I.outputStream) I.write_unsigned_short [.attr (.name I.self) I.recordType] []),",
    "new": "   [.expr (.method (.name I.outputStream) I.write_short [.attr (.name I.self) I.recordType] []),",
    "descr": "I.write_unsigned_short -> I.write_short in: [.expr (.method (.name I.outputStream) I.write_unsigned_short [.attr (.name I.self) I.recordType] []),"
   },
   {
    "file": "Verif/Source/Dis2.lean",
    "within": "IntercomCommunicationsParameters.parse",
    "old": "   [.assign (.attr (.name I.self) I.recordType) (.method (.name I.inputStream) I.read_unsigned_short [] []),",
    "new": "   [.assign (.attr (.name I.self) I.recordType) (.method (.name I.inputStream) I.read_short [] []),",
    "descr": "I.read_unsigned_short -> I.read_short in: [.assign (.attr (.name I.self) I.recordType) (.method (.name I.inputStream) I.read_unsigned_short [] []),"
   },
   {
    "file": "Verif/Source/Dis2.lean",
    "within": "EntityType.serialize",
    "old": "    .expr (.method (.name I.outputStream) I.write_unsigned_byte [.attr (.name I.self) I.extra] [])]",
    "new": "    .expr (.method (.name I.outputStream) I.write_byte [.attr (.name I.self) I.extra] [])]",
    "descr": "I.write_unsigned_byte -> I.write_byte in: .expr (.method (.name I.outputStream) I.write_unsigned_byte [.attr (.name I.self) I.extra] [])]"
   },
   {
    "file": "Verif/Source/Dis2.lean",
    "within": "EntityType.parse",
    "old": "    .assign (.attr (.name I.self) I.subcategory) (.method (.name I.inputStream) I.read_unsigned_byte [] []),",
    "new": "    .assign (.attr (.name I.self) I.subcategory) (.method (.name I.inputStream) I.read_byte [] []),",
    "descr": "I.read_unsigned_byte -> I.read_byte in: .assign (.attr (.name I.self) I.subcategory) (.method (.name I.inputStream) I.read_unsigned_byte [] []),"
   },
   {
    "file": "Verif/Source/Dis2.lean",
    "within": "Munition.serialize",
    "old": "    .expr (.method (.name I.outputStream) I.write_unsigned_byte [.attr (.name I.self) I.padding] [])]",
    "new": "    .expr (.method (.name I.outputStream) I.write_byte [.attr (.name I.self) I.padding] [])]",
    "descr": "I.write_unsigned_byte -> I.write_byte in: .expr (.method (.name I.outputStream) I.write_unsigned_byte [.attr (.name I.self) I.padding] [])]"
   },
   {
    "file": "Verif/Source/Dis2.lean",
    "within": "Munition.parse",
    "old": "    .assign (.attr (.name I.self) I.padding) (.method (.name I.inputStream) I.read_unsigned_byte [] [])]",
    "new": "    .assign (.attr (.name I.self) I.padding) (.method (.name I.inputStream) I.read_byte [] [])]",
    "descr": "I.read_unsigned_byte -> I.read_byte in: .assign (.attr (.name I.self) I.padding) (.method (.name I.inputStream) I.read_unsigned_byte [] [])]"
   },
   {
    "file": "Verif/Source/Dis2.lean",
    "within": "StandardVariableSpecification.serialize",
    "old": "   [.expr (.method (.name I.outputStream) I.write_unsigned_short [.attr (.name I.self) I.numberOfStandardVariableRecords] []),",
    "new": "   [.expr (.method (.name I.outputStream) I.write_short [.attr (.name I.self) I.numberOfStandardVariableRecords] []),",
    "descr": "I.write_unsigned_short -> I.write_short in: [.expr (.method (.name I.outputStream) I.write_unsigned_short [.attr (.name I.self) I.numberOfStandardVariableRecords] ["
   },
   {
    "file": "Verif/Source/Dis2.lean",
    "within": "StandardVariableSpecification.parse",
    "old": "    .for I.idx (.call I.range [.int 0, .name I.numberOfStandardVariableRecords] [])",
    "new": "    .for I.idx (.call I.range [.int 1, .name I.numberOfStandardVariableRecords] [])",
    "descr": ".int 0 -> .int 1 in: .for I.idx (.call I.range [.int 0, .name I.numberOfStandardVariableRecords] [])"
   },
   {
    "file": "Verif/Source/Dis2.lean",
    "within": "Environment.serialize",
    "old": "    .expr (.method (.name I.outputStream) I.write_unsigned_byte [.attr (.name I.self) I.index] []),",
    "new": "    .expr (.method (.name I.outputStream) I.write_byte [.attr (.name I.self) I.index] []),",
    "descr": "I.write_unsigned_byte -> I.write_byte in: .expr (.method (.name I.outputStream) I.write_unsigned_byte [.attr (.name I.self) I.index] []),"
   },
   {
    "file": "Verif/Source/Dis2.lean",
    "within": "Environment.parse",
    "old": "    .assign (.attr (.name I.self) I.index) (.method (.name I.inputStream) I.read_unsigned_byte [] []),\n",
    "new": "",
    "descr": "dropped: .assign (.attr (.name I.self) I.index) (.method (.name I.inputStream) I.read_unsigned_byte [] []),"
   },
   {
    "file": "Verif/Source/Dis2.lean",
    "within": "AcousticEmitter.serialize",
    "old": "    .expr (.method (.name I.outputStream) I.write_unsigned_byte [.attr (.name I.self) I.acousticFunction] []),",
    "new": "    .expr (.method (.name I.outputStream) I.write_byte [.attr (.name I.self) I.acousticFunction] []),",
    "descr": "I.write_unsigned_byte -> I.write_byte in: .expr (.method (.name I.outputStream) I.write_unsigned_byte [.attr (.name I.self) I.acousticFunction] []),"
   },
   {
    "file": "Verif/Source/Dis2.lean",
    "within": "AcousticEmitter.parse",
    "old": "    .assign (.attr (.name I.self) I.acousticFunction) (.method (.name I.inputStream) I.read_unsigned_byte [] []),\n",
    "new": "",
    "descr": "dropped: .assign (.attr (.name I.self) I.acousticFunction) (.method (.name I.inputStream) I.read_unsigned_byte [] []),"
   },
   {
    "file": "Verif/Source/Dis2.lean",
    "within": "AngularVelocityVector.serialize",
    "old": "    .expr (.method (.name I.outputStream) I.write_float [.attr (.name I.self) I.y] []),\n",
    "new": "",
    "descr": "dropped: .expr (.method (.name I.outputStream) I.write_float [.attr (.name I.self) I.y] []),"
   },
   {
    "file": "Verif/Source/Dis2.lean",
    "within": "AngularVelocityVector.parse",
    "old": "    .assign (.attr (.name I.self) I.y) (.method (.name I.inputStream) I.read_float [] []),\n",
    "new": "",
    "descr": "dropped: .assign (.attr (.name I.self) I.y) (.method (.name I.inputStream) I.read_float [] []),"
   },
   {
    "file": "Verif/Source/Dis2.lean",
    "within": "AggregateMarking.serialize",
    "old": "    .for I.idx (.call I.range [.int 0, .int 31] [])",
    "new": "    .for I.idx (.call I.range [.int 1, .int 31] [])",
    "descr": ".int 0 -> .int 1 in: .for I.idx (.call I.range [.int 0, .int 31] [])"
   },
   {
    "file": "Verif/Source/Dis2.lean",
    "within": "AggregateMarking.parse",
    "old": "    .assign (.attr (.name I.self) I.characters) (.bin .mul (.list [.int 0]) (.int 31)),\n",
    "new": "",
    "descr": "dropped: .assign (.attr (.name I.self) I.characters) (.bin .mul (.list [.int 0]) (.int 31)),"
   },
   {
    "file": "Verif/Source/Dis2.lean",
    "within": "DataFilterRecord.serialize",
    "old": "   [.expr (.method (.name I.outputStream) I.write_unsigned_int [.attr (.name I.self) I.bitFlags] [])]",
    "new": "   [.expr (.method (.name I.outputStream) I.write_unsigned_short [.attr (.name I.self) I.bitFlags] [])]",
    "descr": "I.write_unsigned_int -> I.write_unsigned_short in: [.expr (.method (.name I.outputStream) I.write_unsigned_int [.attr (.name I.self) I.bitFlags] [])]"
   },
   {
    "file": "Verif/Source/Dis2.lean",
    "within": "DataFilterRecord.parse",
    "old": "   [.assign (.attr (.name I.self) I.bitFlags) (.method (.name I.inputStream) I.read_unsigned_int [] [])]",
    "new": "   [.assign (.attr (.name I.self) I.bitFlags) (.method (.name I.inputStream) I.read_unsigned_short [] [])]",
    "descr": "I.read_unsigned_int -> I.read_unsigned_short in: [.assign (.attr (.name I.self) I.bitFlags) (.method (.name I.inputStream) I.read_unsigned_int [] [])]"
   },
   {
    "file": "Verif/Source/Dis2.lean",
    "within": "IntercomIdentifier.serialize",
    "old": "    .expr (.method (.name I.outputStream) I.write_unsigned_short [.attr (.name I.self) I.applicationNumber] []),\n",
    "new": "",
    "descr": "dropped: .expr (.method (.name I.outputStream) I.write_unsigned_short [.attr (.name I.self) I.applicationNumber] []),"
   },
   {
    "file": "Verif/Source/Dis2.lean",
    "within": "IntercomIdentifier.parse",
    "old": "    .assign (.attr (.name I.self) I.referenceNumber) (.method (.name I.inputStream) I.read_unsigned_short [] []),\n",
    "new": "",
    "descr": "dropped: .assign (.attr (.name I.self) I.referenceNumber) (.method (.name I.inputStream) I.read_unsigned_short [] []),"
   },
   {
    "file": "Verif/Source/Dis2.lean",
    "within": "StorageFuel.serialize",
    "old": "    .expr (.method (.name I.outputStream) I.write_unsigned_byte [.attr (.name I.self) I.fuelType] []),",
    "new": "    .expr (.method (.name I.outputStream) I.write_byte [.attr (.name I.self) I.fuelType] []),",
    "descr": "I.write_unsigned_byte -> I.write_byte in: .expr (.method (.name I.outputStream) I.write_unsigned_byte [.attr (.name I.self) I.fuelType] []),"
   },
   {
    "file": "Verif/Source/Dis2.lean",
    "within": "StorageFuel.parse",
    "old": "    .assign (.attr (.name I.self) I.fuelType) (.method (.name I.inputStream) I.read_unsigned_byte [] []),\n",
    "new": "",
    "descr": "dropped: .assign (.attr (.name I.self) I.fuelType) (.method (.name I.inputStream) I.read_unsigned_byte [] []),"
   },
   {
    "file": "Verif/Source/Dis2.lean",
    "within": "Sensor.serialize",
    "old": "    .expr (.method (.name I.outputStream) I.write_unsigned_short [.attr (.name I.self) I.sensorType] []),\n",
    "new": "",
    "descr": "dropped: .expr (.method (.name I.outputStream) I.write_unsigned_short [.attr (.name I.self) I.sensorType] []),"
   },
   {
    "file": "Verif/Source/Dis2.lean",
    "within": "Sensor.parse",
    "old": "    .assign (.attr (.name I.self) I.quantity) (.method (.name I.inputStream) I.read_unsigned_short [] []),\n",
    "new": "",
    "descr": "dropped: .assign (.attr (.name I.self) I.quantity) (.method (.name I.inputStream) I.read_unsigned_short [] []),"
   },
   {
    "file": "Verif/Source/Dis2.lean",
    "within": "MunitionReload.serialize",
    "old": "    .expr (.method (.name I.outputStream) I.write_unsigned_short [.attr (.name I.self) I.maximumQuantity] []),\n",
    "new": "",
    "descr": "dropped: .expr (.method (.name I.outputStream) I.write_unsigned_short [.attr (.name I.self) I.maximumQuantity] []),"
   },
   {
    "file": "Verif/Source/Dis2.lean",
    "within": "MunitionReload.parse",
    "old": "    .assign (.attr (.name I.self) I.maximumQuantity) (.method (.name I.inputStream) I.read_unsigned_short [] []),\n    .assign (.attr (.name I.self) I.standardQuantityReloadTime) (.method (.name I.inputStream) I.read_unsigned_int [] []),\n",
    "new": "    .assign (.attr (.name I.self) I.standardQuantityReloadTime) (.method (.name I.inputStream) I.read_unsigned_int [] []),\n    .assign (.attr (.name I.self) I.maximumQuantity) (.method (.name I.inputStream) I.read_unsigned_short [] []),\n",
    "descr": "swapped: .assign (.attr (.name I.self) I.maximumQuantity) (.method (.name I.inputStream) I.read_unsigned_short [] []), / .assign (.attr (.name I.self) I.standardQuantityReloadTime) (.method (.name I.inputStream) I.read_unsigned_int [] []),"
   },
   {
    "file": "Verif/Source/Dis2.lean",
    "within": "StorageFuelReload.serialize",
    "old": "    .expr (.method (.name I.outputStream) I.write_unsigned_int [.attr (.name I.self) I.maximumQuantity] []),\n    .expr (.method (.name I.outputStream) I.write_unsigned_byte [.attr (.name I.self) I.standardQuantityReloadTime] []),\n",
    "new": "    .expr (.method (.name I.outputStream) I.write_unsigned_byte [.attr (.name I.self) I.standardQuantityReloadTime] []),\n    .expr (.method (.name I.outputStream) I.write_unsigned_int [.attr (.name I.self) I.maximumQuantity] []),\n",
    "descr": "swapped: .expr (.method (.name I.outputStream) I.write_unsigned_int [.attr (.name I.self) I.maximumQuantity] []), / .expr (.method (.name I.outputStream) I.write_unsigned_byte [.attr (.name I.self) I.standardQuantityReloadTime] []),"
   },
   {
    "file": "Verif/Source/Dis2.lean",
    "within": "StorageFuelReload.parse",
    "old": "    .assign (.attr (.name I.self) I.fuelType) (.method (.name I.inputStream) I.read_unsigned_byte [] []),\n",
    "new": "",
    "descr": "dropped: .assign (.attr (.name I.self) I.fuelType) (.method (.name I.inputStream) I.read_unsigned_byte [] []),"
   },
   {
    "file": "Verif/Source/Dis2.lean",
    "within": "ExpendableReload.serialize",
    "old": "    .expr (.method (.name I.outputStream) I.write_unsigned_int [.attr (.name I.self) I.station] []),\n",
    "new": "",
    "descr": "dropped: .expr (.method (.name I.outputStream) I.write_unsigned_int [.attr (.name I.self) I.station] []),"
   },
   {
    "file": "Verif/Source/Dis2.lean",
    "within": "ExpendableReload.parse",
    "old": "    .assign (.attr (.name I.self) I.standardQuantity) (.method (.name I.inputStream) I.read_unsigned_short [] []),\n",
    "new": "",
    "descr": "dropped: .assign (.attr (.name I.self) I.standardQuantity) (.method (.name I.inputStream) I.read_unsigned_short [] []),"
   },
   {
    "file": "Verif/Source/Dis2.lean",
    "within": "EngineFuelReload.serialize",
    "old": "    .expr (.method (.name I.outputStream) I.write_unsigned_byte [.attr (.name I.self) I.fuelLocation] []),\n",
    "new": "",
    "descr": "dropped: .expr (.method (.name I.outputStream) I.write_unsigned_byte [.attr (.name I.self) I.fuelLocation] []),"
   },
   {
    "file": "Verif/Source/Dis2.lean",
    "within": "EngineFuelReload.parse",
    "old": "    .assign (.attr (.name I.self) I.fuelMeasurmentUnits) (.method (.name I.inputStream) I.read_unsigned_byte [] []),\n    .assign (.attr (.name I.self) I.fuelLocation) (.method (.name I.inputStream) I.read_unsigned_byte [] []),\n",
    "new": "    .assign (.attr (.name I.self) I.fuelLocation) (.method (.name I.inputStream) I.read_unsigned_byte [] []),\n    .assign (.attr (.name I.self) I.fuelMeasurmentUnits) (.method (.name I.inputStream) I.read_unsigned_byte [] []),\n",
    "descr": "swapped: .assign (.attr (.name I.self) I.fuelMeasurmentUnits) (.method (.name I.inputStream) I.read_unsigned_byte [] []), / .assign (.attr (.name I.self) I.fuelLocation) (.method (.name I.inputStream) I.read_unsigned_byte [] []),"
   },
   {
    "file": "Verif/Source/Dis2.lean",
    "within": "UnattachedIdentifier.serialize",
    "old": "    .expr (.method (.name I.outputStream) I.write_unsigned_short [.attr (.name I.self) I.referenceNumber] [])]",
    "new": "    .expr (.method (.name I.outputStream) I.write_short [.attr (.name I.self) I.referenceNumber] [])]",
    "descr": "I.write_unsigned_short -> I.write_short in: .expr (.method (.name I.outputStream) I.write_unsigned_short [.attr (.name I.self) I.referenceNumber] [])]"
   },
   {
    "file": "Verif/Source/Dis2.lean",
    "within": "UnattachedIdentifier.parse",
    "old": "    .assign (.attr (.name I.self) I.referenceNumber) (.method (.name I.inputStream) I.read_unsigned_short [] [])]",
    "new": "    .assign (.attr (.name I.self) I.referenceNumber) (.method (.name I.inputStream) I.read_short [] [])]",
    "descr": "I.read_unsigned_short -> I.read_short in: .assign (.attr (.name I.self) I.referenceNumber) (.method (.name I.inputStream) I.read_unsigned_short [] [])]"
   },
   {
    "file": "Verif/Source/Dis2.lean",
    "within": "EntityTypeVP.serialize",
    "old": "    .expr (.method (.name I.outputStream) I.write_unsigned_short [.attr (.name I.self) I.padding] []),\n",
    "new": "",
    "descr": "dropped: .expr (.method (.name I.outputStream) I.write_unsigned_short [.attr (.name I.self) I.padding] []),"
   },
   {
    "file": "Verif/Source/Dis2.lean",
    "within": "EntityTypeVP.parse",
    "old": "    .expr (.method (.attr (.name I.self) I.entityType) I.parse [.name I.inputStream] []),\n    .assign (.attr (.name I.self) I.padding) (.method (.name I.inputStream) I.read_unsigned_short [] []),\n",
    "new": "    .assign (.attr (.name I.self) I.padding) (.method (.name I.inputStream) I.read_unsigned_short [] []),\n    .expr (.method (.attr (.name I.self) I.entityType) I.parse [.name I.inputStream] []),\n",
    "descr": "swapped: .expr (.method (.attr (.name I.self) I.entityType) I.parse [.name I.inputStream] []), / .assign (.attr (.name I.self) I.padding) (.method (.name I.inputStream) I.read_unsigned_short [] []),"
   },
   {
    "file": "Verif/Source/Dis2.lean",
    "within": "BeamStatus.serialize",
    "old": "   [.expr (.method (.name I.outputStream) I.write_unsigned_byte [.bin .bitand (.attr (.name I.self) I.beamState) (.int 1)] [])]",
    "new": "   [.expr (.method (.name I.outputStream) I.write_byte [.bin .bitand (.attr (.name I.self) I.beamState) (.int 1)] [])]",
    "descr": "I.write_unsigned_byte -> I.write_byte in: [.expr (.method (.name I.outputStream) I.write_unsigned_byte [.bin .bitand (.attr (.name I.self) I.beamState) (.int 1)] "
   },
   {
    "file": "Verif/Source/Dis2.lean",
    "within": "BeamStatus.parse",
    "old": "   [.assign (.name I.value) (.bin .bitand (.method (.name I.inputStream) I.read_unsigned_byte [] []) (.int 1)),",
    "new": "   [.assign (.name I.value) (.bin .bitand (.method (.name I.inputStream) I.read_byte [] []) (.int 1)),",
    "descr": "I.read_unsigned_byte -> I.read_byte in: [.assign (.name I.value) (.bin .bitand (.method (.name I.inputStream) I.read_unsigned_byte [] []) (.int 1)),"
   },
   {
    "file": "Verif/Source/Dis2.lean",
    "within": "EnvironmentGeneral.serialize",
    "old": "   [.expr (.method (.name I.outputStream) I.write_unsigned_int [.attr (.name I.self) I.environmentType] []),",
    "new": "   [.expr (.method (.name I.outputStream) I.write_unsigned_short [.attr (.name I.self) I.environmentType] []),",
    "descr": "I.write_unsigned_int -> I.write_unsigned_short in: [.expr (.method (.name I.outputStream) I.write_unsigned_int [.attr (.name I.self) I.environmentType] []),"
   },
   {
    "file": "Verif/Source/Dis2.lean",
    "within": "EnvironmentGeneral.parse",
    "old": "    .assign (.attr (.name I.self) I.index) (.method (.name I.inputStream) I.read_unsigned_byte [] []),",
    "new": "    .assign (.attr (.name I.self) I.index) (.method (.name I.inputStream) I.read_byte [] []),",
    "descr": "I.read_unsigned_byte -> I.read_byte in: .assign (.attr (.name I.self) I.index) (.method (.name I.inputStream) I.read_unsigned_byte [] []),"
   },
   {
    "file": "Verif/Source/Dis2.lean",
    "within": "GridAxis.serialize",
    "old": "    .expr (.method (.name I.outputStream) I.write_double [.attr (.name I.self) I.domainFinalXi] []),\n",
    "new": "",
    "descr": "dropped: .expr (.method (.name I.outputStream) I.write_double [.attr (.name I.self) I.domainFinalXi] []),"
   },
   {
    "file": "Verif/Source/Dis2.lean",
    "within": "GridAxis.parse",
    "old": "    .assign (.attr (.name I.self) I.interleafFactor) (.method (.name I.inputStream) I.read_unsigned_byte [] []),\n",
    "new": "",
    "descr": "dropped: .assign (.attr (.name I.self) I.interleafFactor) (.method (.name I.inputStream) I.read_unsigned_byte [] []),"
   },
   {
    "file": "Verif/Source/Dis2.lean",
    "within": "RecordSpecification.serialize",
    "old": "   [.expr (.method (.name I.outputStream) I.write_unsigned_int [.attr (.name I.self) I.numberOfRecordSets] []),",
    "new": "   [.expr (.method (.name I.outputStream) I.write_unsigned_short [.attr (.name I.self) I.numberOfRecordSets] []),",
    "descr": "I.write_unsigned_int -> I.write_unsigned_short in: [.expr (.method (.name I.outputStream) I.write_unsigned_int [.attr (.name I.self) I.numberOfRecordSets] []),"
   },
   {
    "file": "Verif/Source/Dis2.lean",
    "within": "RecordSpecification.parse",
    "old": "    .for I.idx (.call I.range [.int 0, .name I.numberOfRecordSets] [])",
    "new": "    .for I.idx (.call I.range [.int 1, .name I.numberOfRecordSets] [])",
    "descr": ".int 0 -> .int 1 in: .for I.idx (.call I.range [.int 0, .name I.numberOfRecordSets] [])"
   },
   {
    "file": "Verif/Source/Dis2.lean",
    "within": "VariableDatum.serialize",
    "old": "      [.expr (.method (.name I.outputStream) I.write_unsigned_byte [.int 0] [])]]",
    "new": "      [.expr (.method (.name I.outputStream) I.write_unsigned_byte [.int 1] [])]]",
    "descr": ".int 0 -> .int 1 in: [.expr (.method (.name I.outputStream) I.write_unsigned_byte [.int 0] [])]]"
   },
   {
    "file": "Verif/Source/Dis2.lean",
    "within": "VariableDatum.parse",
    "old": "    .assign (.attr (.name I.self) I.variableDatumLength) (.method (.name I.inputStream) I.read_unsigned_int [] []),\n",
    "new": "",
    "descr": "dropped: .assign (.attr (.name I.self) I.variableDatumLength) (.method (.name I.inputStream) I.read_unsigned_int [] []),"
   },
   {
    "file": "Verif/Source/Dis2.lean",
    "within": "EventIdentifierLiveEntity.serialize",
    "old": "    .expr (.method (.name I.outputStream) I.write_unsigned_short [.attr (.name I.self) I.eventNumber] [])]",
    "new": "    .expr (.method (.name I.outputStream) I.write_short [.attr (.name I.self) I.eventNumber] [])]",
    "descr": "I.write_unsigned_short -> I.write_short in: .expr (.method (.name I.outputStream) I.write_unsigned_short [.attr (.name I.self) I.eventNumber] [])]"
   },
   {
    "file": "Verif/Source/Dis2.lean",
    "within": "EventIdentifierLiveEntity.parse",
    "old": "    .assign (.attr (.name I.self) I.applicationNumber) (.method (.name I.inputStream) I.read_unsigned_byte [] []),\n",
    "new": "",
    "descr": "dropped: .assign (.attr (.name I.self) I.applicationNumber) (.method (.name I.inputStream) I.read_unsigned_byte [] []),"
   },
   {
    "file": "Verif/Source/Dis2.lean",
    "within": "PduHeader.serialize",
    "old": "    .expr (.method (.name I.outputStream) I.write_unsigned_byte [.attr (.name I.self) I.exerciseID] []),\n",
    "new": "",
    "descr": "dropped: .expr (.method (.name I.outputStream) I.write_unsigned_byte [.attr (.name I.self) I.exerciseID] []),"
   },
   {
    "file": "Verif/Source/Dis2.lean",
    "within": "PduHeader.parse",
    "old": "    .assign (.attr (.name I.self) I.exerciseID) (.method (.name I.inputStream) I.read_unsigned_byte [] []),",
    "new": "    .assign (.attr (.name I.self) I.exerciseID) (.method (.name I.inputStream) I.read_byte [] []),",
    "descr": "I.read_unsigned_byte -> I.read_byte in: .assign (.attr (.name I.self) I.exerciseID) (.method (.name I.inputStream) I.read_unsigned_byte [] []),"
   }
  ]
 },
 {
  "id": "U3",
  "definition": "Verif/Source/Dis3.lean",
  "claim": "the classes do what their text says (C77)",
  "expect": [
   "C77"
  ],
  "edits": [
   {
    "file": "Verif/Source/Dis3.lean",
    "within": "PduSuperclass.serialize",
    "old": "    .expr (.method (.name I.outputStream) I.write_unsigned_byte [.attr (.name I.self) I.protocolFamily] []),\n    .expr (.method (.name I.outputStream) I.write_unsigned_int [.attr (.name I.self) I.timestamp] []),\n",
    "new": "    .expr (.method (.name I.outputStream) I.write_unsigned_int [.attr (.name I.self) I.timestamp] []),\n    .expr (.method (.name I.outputStream) I.write_unsigned_byte [.attr (.name I.self) I.protocolFamily] []),\n",
    "descr": "swapped: .expr (.method (.name I.outputStream) I.write_unsigned_byte [.attr (.name I.self) I.protocolFamily] []), / .expr (.method (.name I.outputStream) I.write_unsigned_int [.attr (.name I.self) I.timestamp] []),"
   },
   {
    "file": "Verif/Source/Dis3.lean",
    "within": "PduSuperclass.parse",
    "old": "    .assign (.attr (.name I.self) I.pduType) (.method (.name I.inputStream) I.read_unsigned_byte [] []),",
    "new": "    .assign (.attr (.name I.self) I.pduType) (.method (.name I.inputStream) I.read_byte [] []),",
    "descr": "I.read_unsigned_byte -> I.read_byte in: .assign (.attr (.name I.self) I.pduType) (.method (.name I.inputStream) I.read_unsigned_byte [] []),"
   },
   {
    "file": "Verif/Source/Dis3.lean",
    "within": "CommunicationsNodeID.serialize",
    "old": "    .expr (.method (.name I.outputStream) I.write_unsigned_short [.attr (.name I.self) I.elementID] [])]",
    "new": "    .expr (.method (.name I.outputStream) I.write_short [.attr (.name I.self) I.elementID] [])]",
    "descr": "I.write_unsigned_short -> I.write_short in: .expr (.method (.name I.outputStream) I.write_unsigned_short [.attr (.name I.self) I.elementID] [])]"
   },
   {
    "file": "Verif/Source/Dis3.lean",
    "within": "CommunicationsNodeID.parse",
    "old": "    .assign (.attr (.name I.self) I.elementID) (.method (.name I.inputStream) I.read_unsigned_short [] [])]",
    "new": "    .assign (.attr (.name I.self) I.elementID) (.method (.name I.inputStream) I.read_short [] [])]",
    "descr": "I.read_unsigned_short -> I.read_short in: .assign (.attr (.name I.self) I.elementID) (.method (.name I.inputStream) I.read_unsigned_short [] [])]"
   },
   {
    "file": "Verif/Source/Dis3.lean",
    "within": "LiveEntityIdentifier.serialize",
    "old": "    .expr (.method (.name I.outputStream) I.write_unsigned_short [.attr (.name I.self) I.entityNumber] [])]",
    "new": "    .expr (.method (.name I.outputStream) I.write_short [.attr (.name I.self) I.entityNumber] [])]",
    "descr": "I.write_unsigned_short -> I.write_short in: .expr (.method (.name I.outputStream) I.write_unsigned_short [.attr (.name I.self) I.entityNumber] [])]"
   },
   {
    "file": "Verif/Source/Dis3.lean",
    "within": "LiveEntityIdentifier.parse",
    "old": "    .assign (.attr (.name I.self) I.entityNumber) (.method (.name I.inputStream) I.read_unsigned_short [] [])]",
    "new": "    .assign (.attr (.name I.self) I.entityNumber) (.method (.name I.inputStream) I.read_short [] [])]",
    "descr": "I.read_unsigned_short -> I.read_short in: .assign (.attr (.name I.self) I.entityNumber) (.method (.name I.inputStream) I.read_unsigned_short [] [])]"
   },
   {
    "file": "Verif/Source/Dis3.lean",
    "within": "SeparationVP.serialize",
    "old": "    .expr (.method (.name I.outputStream) I.write_unsigned_byte [.attr (.name I.self) I.padding1] []),",
    "new": "    .expr (.method (.name I.outputStream) I.write_byte [.attr (.name I.self) I.padding1] []),",
    "descr": "I.write_unsigned_byte -> I.write_byte in: .expr (.method (.name I.outputStream) I.write_unsigned_byte [.attr (.name I.self) I.padding1] []),"
   },
   {
    "file": "Verif/Source/Dis3.lean",
    "within": "SeparationVP.parse",
    "old": "   [.assign (.attr (.name I.self) I.recordType) (.method (.name I.inputStream) I.read_unsigned_byte [] []),",
    "new": "   [.assign (.attr (.name I.self) I.recordType) (.method (.name I.inputStream) I.read_byte [] []),",
    "descr": "I.read_unsigned_byte -> I.read_byte in: [.assign (.attr (.name I.self) I.recordType) (.method (.name I.inputStream) I.read_unsigned_byte [] []),"
   },
   {
    "file": "Verif/Source/Dis3.lean",
    "within": "EmitterSystem.serialize",
    "old": "   [.expr (.method (.name I.outputStream) I.write_unsigned_short [.attr (.name I.self) I.emitterName] []),",
    "new": "   [.expr (.method (.name I.outputStream) I.write_short [.attr (.name I.self) I.emitterName] []),",
    "descr": "I.write_unsigned_short -> I.write_short in: [.expr (.method (.name I.outputStream) I.write_unsigned_short [.attr (.name I.self) I.emitterName] []),"
   },
   {
    "file": "Verif/Source/Dis3.lean",
    "within": "EmitterSystem.parse",
    "old": "    .assign (.attr (.name I.self) I.emitterFunction) (.method (.name I.inputStream) I.read_unsigned_byte [] []),\n",
    "new": "",
    "descr": "dropped: .assign (.attr (.name I.self) I.emitterFunction) (.method (.name I.inputStream) I.read_unsigned_byte [] []),"
   },
   {
    "file": "Verif/Source/Dis3.lean",
    "within": "PduStatus.serialize",
    "old": "   [.expr (.method (.name I.outputStream) I.write_unsigned_byte [.attr (.name I.self) I.pduStatus] [])]",
    "new": "   [.expr (.method (.name I.outputStream) I.write_byte [.attr (.name I.self) I.pduStatus] [])]",
    "descr": "I.write_unsigned_byte -> I.write_byte in: [.expr (.method (.name I.outputStream) I.write_unsigned_byte [.attr (.name I.self) I.pduStatus] [])]"
   },
   {
    "file": "Verif/Source/Dis3.lean",
    "within": "PduStatus.parse",
    "old": "   [.assign (.attr (.name I.self) I.pduStatus) (.method (.name I.inputStream) I.read_unsigned_byte [] [])]",
    "new": "   [.assign (.attr (.name I.self) I.pduStatus) (.method (.name I.inputStream) I.read_byte [] [])]",
    "descr": "I.read_unsigned_byte -> I.read_byte in: [.assign (.attr (.name I.self) I.pduStatus) (.method (.name I.inputStream) I.read_unsigned_byte [] [])]"
   },
   {
    "file": "Verif/Source/Dis3.lean",
    "within": "LiveEntityPdu.serialize",
    "old": "    .expr (.method (.name I.outputStream) I.write_unsigned_short [.attr (.name I.self) I.subprotocolNumber] []),",
    "new": "    .expr (.method (.name I.outputStream) I.write_short [.attr (.name I.self) I.subprotocolNumber] []),",
    "descr": "I.write_unsigned_short -> I.write_short in: .expr (.method (.name I.outputStream) I.write_unsigned_short [.attr (.name I.self) I.subprotocolNumber] []),"
   },
   {
    "file": "Verif/Source/Dis3.lean",
    "within": "LiveEntityPdu.parse",
    "old": "    .assign (.attr (.name I.self) I.padding) (.method (.name I.inputStream) I.read_unsigned_byte [] [])]",
    "new": "    .assign (.attr (.name I.self) I.padding) (.method (.name I.inputStream) I.read_byte [] [])]",
    "descr": "I.read_unsigned_byte -> I.read_byte in: .assign (.attr (.name I.self) I.padding) (.method (.name I.inputStream) I.read_unsigned_byte [] [])]"
   },
   {
    "file": "Verif/Source/Dis3.lean",
    "within": "Pdu.serialize",
    "old": "    .expr (.method (.name I.outputStream) I.write_unsigned_byte [.attr (.name I.self) I.pduStatus] []),\n",
    "new": "",
    "descr": "dropped: .expr (.method (.name I.outputStream) I.write_unsigned_byte [.attr (.name I.self) I.pduStatus] []),"
   },
   {
    "file": "Verif/Source/Dis3.lean",
    "within": "Pdu.parse",
    "old": "    .assign (.attr (.name I.self) I.pduStatus) (.method (.name I.inputStream) I.read_unsigned_byte [] []),",
    "new": "    .assign (.attr (.name I.self) I.pduStatus) (.method (.name I.inputStream) I.read_byte [] []),",
    "descr": "I.read_unsigned_byte -> I.read_byte in: .assign (.attr (.name I.self) I.pduStatus) (.method (.name I.inputStream) I.read_unsigned_byte [] []),"
   },
   {
    "file": "Verif/Source/Dis3.lean",
    "within": "EntityStateUpdatePdu.serialize",
    "old": "    .expr (.method (.name I.outputStream) I.write_unsigned_int [.attr (.name I.self) I.entityAppearance] []),",
    "new": "    .expr (.method (.name I.outputStream) I.write_unsigned_short [.attr (.name I.self) I.entityAppearance] []),",
    "descr": "I.write_unsigned_int -> I.write_unsigned_short in: .expr (.method (.name I.outputStream) I.write_unsigned_int [.attr (.name I.self) I.entityAppearance] []),"
   },
   {
    "file": "Verif/Source/Dis3.lean",
    "within": "EntityStateUpdatePdu.parse",
    "old": "    .assign (.attr (.name I.self) I.entityAppearance) (.method (.name I.inputStream) I.read_unsigned_int [] []),",
    "new": "    .assign (.attr (.name I.self) I.entityAppearance) (.method (.name I.inputStream) I.read_unsigned_short [] []),",
    "descr": "I.read_unsigned_int -> I.read_unsigned_short in: .assign (.attr (.name I.self) I.entityAppearance) (.method (.name I.inputStream) I.read_unsigned_int [] []),"
   },
   {
    "file": "Verif/Source/Dis3.lean",
    "within": "ServiceRequestPdu.serialize",
    "old": "    .expr (.method (.attr (.name I.self) I.servicingEntityID) I.serialize [.name I.outputStream] []),\n    .expr (.method (.name I.outputStream) I.write_unsigned_byte [.attr (.name I.self) I.serviceTypeRequested] []),\n",
    "new": "    .expr (.method (.name I.outputStream) I.write_unsigned_byte [.attr (.name I.self) I.serviceTypeRequested] []),\n    .expr (.method (.attr (.name I.self) I.servicingEntityID) I.serialize [.name I.outputStream] []),\n",
    "descr": "swapped: .expr (.method (.attr (.name I.self) I.servicingEntityID) I.serialize [.name I.outputStream] []), / .expr (.method (.name I.outputStream) I.write_unsigned_byte [.attr (.name I.self) I.serviceTypeRequested] []),"
   },
   {
    "file": "Verif/Source/Dis3.lean",
    "within": "ServiceRequestPdu.parse",
    "old": "    .assign (.name I.numberOfSupplyTypes) (.method (.name I.inputStream) I.read_unsigned_byte [] []),\n    .assign (.attr (.name I.self) I.serviceRequestPadding) (.method (.name I.inputStream) I.read_short [] []),\n",
    "new": "    .assign (.attr (.name I.self) I.serviceRequestPadding) (.method (.name I.inputStream) I.read_short [] []),\n    .assign (.name I.numberOfSupplyTypes) (.method (.name I.inputStream) I.read_unsigned_byte [] []),\n",
    "descr": "swapped: .assign (.name I.numberOfSupplyTypes) (.method (.name I.inputStream) I.read_unsigned_byte [] []), / .assign (.attr (.name I.self) I.serviceRequestPadding) (.method (.name I.inputStream) I.read_short [] []),"
   },
   {
    "file": "Verif/Source/Dis3.lean",
    "within": "RepairCompletePdu.serialize",
    "old": "    .expr (.method (.attr (.name I.self) I.repairingEntityID) I.serialize [.name I.outputStream] []),\n",
    "new": "",
    "descr": "dropped: .expr (.method (.attr (.name I.self) I.repairingEntityID) I.serialize [.name I.outputStream] []),"
   },
   {
    "file": "Verif/Source/Dis3.lean",
    "within": "RepairCompletePdu.parse",
    "old": "    .assign (.attr (.name I.self) I.repair) (.method (.name I.inputStream) I.read_unsigned_short [] []),\n",
    "new": "",
    "descr": "dropped: .assign (.attr (.name I.self) I.repair) (.method (.name I.inputStream) I.read_unsigned_short [] []),"
   },
   {
    "file": "Verif/Source/Dis3.lean",
    "within": "CollisionPdu.serialize",
    "old": "    .expr (.method (.name I.outputStream) I.write_unsigned_byte [.attr (.name I.self) I.collisionType] []),",
    "new": "    .expr (.method (.name I.outputStream) I.write_byte [.attr (.name I.self) I.collisionType] []),",
    "descr": "I.write_unsigned_byte -> I.write_byte in: .expr (.method (.name I.outputStream) I.write_unsigned_byte [.attr (.name I.self) I.collisionType] []),"
   },
   {
    "file": "Verif/Source/Dis3.lean",
    "within": "CollisionPdu.parse",
    "old": "    .assign (.attr (.name I.self) I.collisionType) (.method (.name I.inputStream) I.read_unsigned_byte [] []),",
    "new": "    .assign (.attr (.name I.self) I.collisionType) (.method (.name I.inputStream) I.read_byte [] []),",
    "descr": "I.read_unsigned_byte -> I.read_byte in: .assign (.attr (.name I.self) I.collisionType) (.method (.name I.inputStream) I.read_unsigned_byte [] []),"
   },
   {
    "file": "Verif/Source/Dis3.lean",
    "within": "RepairResponsePdu.serialize",
    "old": "    .expr (.method (.attr (.name I.self) I.receivingEntityID) I.serialize [.name I.outputStream] []),\n",
    "new": "",
    "descr": "dropped: .expr (.method (.attr (.name I.self) I.receivingEntityID) I.serialize [.name I.outputStream] []),"
   },
   {
    "file": "Verif/Source/Dis3.lean",
    "within": "RepairResponsePdu.parse",
    "old": "    .assign (.attr (.name I.self) I.repairResult) (.method (.name I.inputStream) I.read_unsigned_byte [] []),\n",
    "new": "",
    "descr": "dropped: .assign (.attr (.name I.self) I.repairResult) (.method (.name I.inputStream) I.read_unsigned_byte [] []),"
   },
   {
    "file": "Verif/Source/Dis3.lean",
    "within": "SimulationManagementFamilyPdu.serialize",
    "old": "    .expr (.method (.attr (.name I.self) I.originatingEntityID) I.serialize [.name I.outputStream] []),\n",
    "new": "",
    "descr": "dropped: .expr (.method (.attr (.name I.self) I.originatingEntityID) I.serialize [.name I.outputStream] []),"
   },
   {
    "file": "Verif/Source/Dis3.lean",
    "within": "SimulationManagementFamilyPdu.parse",
    "old": "    .expr (.method (.attr (.name I.self) I.originatingEntityID) I.parse [.name I.inputStream] []),\n",
    "new": "",
    "descr": "dropped: .expr (.method (.attr (.name I.self) I.originatingEntityID) I.parse [.name I.inputStream] []),"
   },
   {
    "file": "Verif/Source/Dis3.lean",
    "within": "DataQueryPdu.serialize",
    "old": "    .expr (.method (.name I.outputStream) I.write_unsigned_int [.attr (.name I.self) I.timeInterval] []),",
    "new": "    .expr (.method (.name I.outputStream) I.write_unsigned_short [.attr (.name I.self) I.timeInterval] []),",
    "descr": "I.write_unsigned_int -> I.write_unsigned_short in: .expr (.method (.name I.outputStream) I.write_unsigned_int [.attr (.name I.self) I.timeInterval] []),"
   },
   {
    "file": "Verif/Source/Dis3.lean",
    "within": "DataQueryPdu.parse",
    "old": "    .assign (.attr (.name I.self) I.requestID) (.method (.name I.inputStream) I.read_unsigned_int [] []),",
    "new": "    .assign (.attr (.name I.self) I.requestID) (.method (.name I.inputStream) I.read_unsigned_short [] []),",
    "descr": "I.read_unsigned_int -> I.read_unsigned_short in: .assign (.attr (.name I.self) I.requestID) (.method (.name I.inputStream) I.read_unsigned_int [] []),"
   },
   {
    "file": "Verif/Source/Dis3.lean",
    "within": "LinearObjectStatePdu.serialize",
    "old": "    .expr (.method (.name I.outputStream) I.write_unsigned_byte [.attr (.name I.self) I.numberOfSegments] []),",
    "new": "    .expr (.method (.name I.outputStream) I.write_byte [.attr (.name I.self) I.numberOfSegments] []),",
    "descr": "I.write_unsigned_byte -> I.write_byte in: .expr (.method (.name I.outputStream) I.write_unsigned_byte [.attr (.name I.self) I.numberOfSegments] []),"
   },
   {
    "file": "Verif/Source/Dis3.lean",
    "within": "LinearObjectStatePdu.parse",
    "old": "    .expr (.method (.attr (.name I.self) I.objectID) I.parse [.name I.inputStream] []),\n",
    "new": "",
    "descr": "dropped: .expr (.method (.attr (.name I.self) I.objectID) I.parse [.name I.inputStream] []),"
   },
   {
    "file": "Verif/Source/Dis3.lean",
    "within": "CreateEntityPdu.serialize",
    "old": "    .expr (.method (.name I.outputStream) I.write_unsigned_int [.attr (.name I.self) I.requestID] [])]",
    "new": "    .expr (.method (.name I.outputStream) I.write_unsigned_short [.attr (.name I.self) I.requestID] [])]",
    "descr": "I.write_unsigned_int -> I.write_unsigned_short in: .expr (.method (.name I.outputStream) I.write_unsigned_int [.attr (.name I.self) I.requestID] [])]"
   },
   {
    "file": "Verif/Source/Dis3.lean",
    "within": "CreateEntityPdu.parse",
    "old": "    .assign (.attr (.name I.self) I.requestID) (.method (.name I.inputStream) I.read_unsigned_int [] [])]",
    "new": "    .assign (.attr (.name I.self) I.requestID) (.method (.name I.inputStream) I.read_unsigned_short [] [])]",
    "descr": "I.read_unsigned_int -> I.read_unsigned_short in: .assign (.attr (.name I.self) I.requestID) (.method (.name I.inputStream) I.read_unsigned_int [] [])]"
   },
   {
    "file": "Verif/Source/Dis3.lean",
    "within": "IntercomSignalPdu.serialize",
    "old": "    .expr (.method (.name I.outputStream) I.write_unsigned_short [.attr (.name I.self) I.dataLength] []),",
    "new": "    .expr (.method (.name I.outputStream) I.write_short [.attr (.name I.self) I.dataLength] []),",
    "descr": "I.write_unsigned_short -> I.write_short in: .expr (.method (.name I.outputStream) I.write_unsigned_short [.attr (.name I.self) I.dataLength] []),"
   },
   {
    "file": "Verif/Source/Dis3.lean",
    "within": "IntercomSignalPdu.parse",
    "old": "    .for I.idx (.call I.range [.int 0, .bin .floordiv (.name I.dataLength) (.int 8)] [])",
    "new": "    .for I.idx (.call I.range [.int 1, .bin .floordiv (.name I.dataLength) (.int 8)] [])",
    "descr": ".int 0 -> .int 1 in: .for I.idx (.call I.range [.int 0, .bin .floordiv (.name I.dataLength) (.int 8)] [])"
   },
   {
    "file": "Verif/Source/Dis3.lean",
    "within": "RemoveEntityPdu.serialize",
    "old": "    .expr (.method (.name I.outputStream) I.write_unsigned_int [.attr (.name I.self) I.requestID] [])]",
    "new": "    .expr (.method (.name I.outputStream) I.write_unsigned_short [.attr (.name I.self) I.requestID] [])]",
    "descr": "I.write_unsigned_int -> I.write_unsigned_short in: .expr (.method (.name I.outputStream) I.write_unsigned_int [.attr (.name I.self) I.requestID] [])]"
   },
   {
    "file": "Verif/Source/Dis3.lean",
    "within": "RemoveEntityPdu.parse",
    "old": "    .assign (.attr (.name I.self) I.requestID) (.method (.name I.inputStream) I.read_unsigned_int [] [])]",
    "new": "    .assign (.attr (.name I.self) I.requestID) (.method (.name I.inputStream) I.read_unsigned_short [] [])]",
    "descr": "I.read_unsigned_int -> I.read_unsigned_short in: .assign (.attr (.name I.self) I.requestID) (.method (.name I.inputStream) I.read_unsigned_int [] [])]"
   },
   {
    "file": "Verif/Source/Dis3.lean",
    "within": "ResupplyReceivedPdu.serialize",
    "old": "    .expr (.method (.name I.outputStream) I.write_unsigned_byte [.attr (.name I.self) I.numberOfSupplyTypes] []),",
    "new": "    .expr (.method (.name I.outputStream) I.write_byte [.attr (.name I.self) I.numberOfSupplyTypes] []),",
    "descr": "I.write_unsigned_byte -> I.write_byte in: .expr (.method (.name I.outputStream) I.write_unsigned_byte [.attr (.name I.self) I.numberOfSupplyTypes] []),"
   },
   {
    "file": "Verif/Source/Dis3.lean",
    "within": "ResupplyReceivedPdu.parse",
    "old": "    .expr (.method (.attr (.name I.self) I.supplyingEntityID) I.parse [.name I.inputStream] []),\n",
    "new": "",
    "descr": "dropped: .expr (.method (.attr (.name I.self) I.supplyingEntityID) I.parse [.name I.inputStream] []),"
   },
   {
    "file": "Verif/Source/Dis3.lean",
    "within": "WarfareFamilyPdu.serialize",
    "old": "    .expr (.method (.attr (.name I.self) I.firingEntityID) I.serialize [.name I.outputStream] []),\n",
    "new": "",
    "descr": "dropped: .expr (.method (.attr (.name I.self) I.firingEntityID) I.serialize [.name I.outputStream] []),"
   },
   {
    "file": "Verif/Source/Dis3.lean",
    "within": "WarfareFamilyPdu.parse",
    "old": "    .expr (.method (.attr (.name I.self) I.firingEntityID) I.parse [.name I.inputStream] []),\n",
    "new": "",
    "descr": "dropped: .expr (.method (.attr (.name I.self) I.firingEntityID) I.parse [.name I.inputStream] []),"
   },
   {
    "file": "Verif/Source/Dis3.lean",
    "within": "CollisionElasticPdu.serialize",
    "old": "    .expr (.method (.attr (.name I.self) I.contactVelocity) I.serialize [.name I.outputStream] []),\n",
    "new": "",
    "descr": "dropped: .expr (.method (.attr (.name I.self) I.contactVelocity) I.serialize [.name I.outputStream] []),"
   },
   {
    "file": "Verif/Source/Dis3.lean",
    "within": "CollisionElasticPdu.parse",
    "old": "    .assign (.attr (.name I.self) I.mass) (.method (.name I.inputStream) I.read_float [] []),\n",
    "new": "",
    "descr": "dropped: .assign (.attr (.name I.self) I.mass) (.method (.name I.inputStream) I.read_float [] []),"
   },
   {
    "file": "Verif/Source/Dis3.lean",
    "within": "ActionRequestPdu.serialize",
    "old": "    .expr (.method (.name I.outputStream) I.write_unsigned_int [.attr (.name I.self) I.actionID] []),\n",
    "new": "",
    "descr": "dropped: .expr (.method (.name I.outputStream) I.write_unsigned_int [.attr (.name I.self) I.actionID] []),"
   },
   {
    "file": "Verif/Source/Dis3.lean",
    "within": "ActionRequestPdu.parse",
    "old": "    .assign (.attr (.name I.self) I.actionID) (.method (.name I.inputStream) I.read_unsigned_int [] []),",
    "new": "    .assign (.attr (.name I.self) I.actionID) (.method (.name I.inputStream) I.read_unsigned_short [] []),",
    "descr": "I.read_unsigned_int -> I.read_unsigned_short in: .assign (.attr (.name I.self) I.actionID) (.method (.name I.inputStream) I.read_unsigned_int [] []),"
   },
   {
    "file": "Verif/Source/Dis3.lean",
    "within": "AcknowledgePdu.serialize",
    "old": "    .expr (.method (.name I.outputStream) I.write_unsigned_short [.attr (.name I.self) I.acknowledgeFlag] []),",
    "new": "    .expr (.method (.name I.outputStream) I.write_short [.attr (.name I.self) I.acknowledgeFlag] []),",
    "descr": "I.write_unsigned_short -> I.write_short in: .expr (.method (.name I.outputStream) I.write_unsigned_short [.attr (.name I.self) I.acknowledgeFlag] []),"
   },
   {
    "file": "Verif/Source/Dis3.lean",
    "within": "AcknowledgePdu.parse",
    "old": "    .assign (.attr (.name I.self) I.acknowledgeFlag) (.method (.name I.inputStream) I.read_unsigned_short [] []),\n",
    "new": "",
    "descr": "dropped: .assign (.attr (.name I.self) I.acknowledgeFlag) (.method (.name I.inputStream) I.read_unsigned_short [] []),"
   },
   {
    "file": "Verif/Source/Dis3.lean",
    "within": "SimulationManagementWithReliabilityFamilyPdu.serialize",
    "old": "    .expr (.method (.attr (.name I.self) I.originatingEntityID) I.serialize [.name I.outputStream] []),\n",
    "new": "",
    "descr": "dropped: .expr (.method (.attr (.name I.self) I.originatingEntityID) I.serialize [.name I.outputStream] []),"
   },
   {
    "file": "Verif/Source/Dis3.lean",
    "within": "SimulationManagementWithReliabilityFamilyPdu.parse",
    "old": "    .expr (.method (.attr (.name I.self) I.originatingEntityID) I.parse [.name I.inputStream] []),\n",
    "new": "",
    "descr": "dropped: .expr (.method (.attr (.name I.self) I.originatingEntityID) I.parse [.name I.inputStream] []),"
   },
   {
    "file": "Verif/Source/Dis3.lean",
    "within": "ActionRequestReliablePdu.serialize",
    "old": "    .expr (.method (.name I.outputStream) I.write_unsigned_byte [.attr (.name I.self) I.pad2] []),\n",
    "new": "",
    "descr": "dropped: .expr (.method (.name I.outputStream) I.write_unsigned_byte [.attr (.name I.self) I.pad2] []),"
   },
   {
    "file": "Verif/Source/Dis3.lean",
    "within": "ActionRequestReliablePdu.parse",
    "old": "    .assign (.attr (.name I.self) I.pad1) (.method (.name I.inputStream) I.read_unsigned_short [] []),",
    "new": "    .assign (.attr (.name I.self) I.pad1) (.method (.name I.inputStream) I.read_short [] []),",
    "descr": "I.read_unsigned_short -> I.read_short in: .assign (.attr (.name I.self) I.pad1) (.method (.name I.inputStream) I.read_unsigned_short [] []),"
   },
   {
    "file": "Verif/Source/Dis3.lean",
    "within": "DesignatorPdu.serialize",
    "old": "    .expr (.method (.name I.outputStream) I.write_unsigned_short [.attr (.name I.self) I.codeName] []),",
    "new": "    .expr (.method (.name I.outputStream) I.write_short [.attr (.name I.self) I.codeName] []),",
    "descr": "I.write_unsigned_short -> I.write_short in: .expr (.method (.name I.outputStream) I.write_unsigned_short [.attr (.name I.self) I.codeName] []),"
   },
   {
    "file": "Verif/Source/Dis3.lean",
    "within": "DesignatorPdu.parse",
    "old": "    .assign (.attr (.name I.self) I.padding1) (.method (.name I.inputStream) I.read_unsigned_short [] []),",
    "new": "    .assign (.attr (.name I.self) I.padding1) (.method (.name I.inputStream) I.read_short [] []),",
    "descr": "I.read_unsigned_short -> I.read_short in: .assign (.attr (.name I.self) I.padding1) (.method (.name I.inputStream) I.read_unsigned_short [] []),"
   },
   {
    "file": "Verif/Source/Dis3.lean",
    "within": "StopFreezePdu.serialize",
    "old": "    .expr (.method (.name I.outputStream) I.write_unsigned_byte [.attr (.name I.self) I.reason] []),",
    "new": "    .expr (.method (.name I.outputStream) I.write_byte [.attr (.name I.self) I.reason] []),",
    "descr": "I.write_unsigned_byte -> I.write_byte in: .expr (.method (.name I.outputStream) I.write_unsigned_byte [.attr (.name I.self) I.reason] []),"
   },
   {
    "file": "Verif/Source/Dis3.lean",
    "within": "StopFreezePdu.parse",
    "old": "    .assign (.attr (.name I.self) I.requestID) (.method (.name I.inputStream) I.read_unsigned_int [] [])]",
    "new": "    .assign (.attr (.name I.self) I.requestID) (.method (.name I.inputStream) I.read_unsigned_short [] [])]",
    "descr": "I.read_unsigned_int -> I.read_unsigned_short in: .assign (.attr (.name I.self) I.requestID) (.method (.name I.inputStream) I.read_unsigned_int [] [])]"
   },
   {
    "file": "Verif/Source/Dis3.lean",
    "within": "EntityStatePdu.serialize",
    "old": "    .expr (.method (.name I.outputStream) I.write_unsigned_int [.attr (.name I.self) I.entityAppearance] []),",
    "new": "    .expr (.method (.name I.outputStream) I.write_unsigned_short [.attr (.name I.self) I.entityAppearance] []),",
    "descr": "I.write_unsigned_int -> I.write_unsigned_short in: .expr (.method (.name I.outputStream) I.write_unsigned_int [.attr (.name I.self) I.entityAppearance] []),"
   },
   {
    "file": "Verif/Source/Dis3.lean",
    "within": "EntityStatePdu.parse",
    "old": "    .for I.idx (.call I.range [.int 0, .name I.numberOfVariableParameters] [])",
    "new": "    .for I.idx (.call I.range [.int 1, .name I.numberOfVariableParameters] [])",
    "descr": ".int 0 -> .int 1 in: .for I.idx (.call I.range [.int 0, .name I.numberOfVariableParameters] [])"
   },
   {
    "file": "Verif/Source/Dis3.lean",
    "within": "StartResumePdu.serialize",
    "old": "    .expr (.method (.attr (.name I.self) I.simulationTime) I.serialize [.name I.outputStream] []),\n",
    "new": "",
    "descr": "dropped: .expr (.method (.attr (.name I.self) I.simulationTime) I.serialize [.name I.outputStream] []),"
   },
   {
    "file": "Verif/Source/Dis3.lean",
    "within": "StartResumePdu.parse",
    "old": "    .assign (.attr (.name I.self) I.requestID) (.method (.name I.inputStream) I.read_unsigned_int [] [])]",
    "new": "    .assign (.attr (.name I.self) I.requestID) (.method (.name I.inputStream) I.read_unsigned_short [] [])]",
    "descr": "I.read_unsigned_int -> I.read_unsigned_short in: .assign (.attr (.name I.self) I.requestID) (.method (.name I.inputStream) I.read_unsigned_int [] [])]"
   },
   {
    "file": "Verif/Source/Dis3.lean",
    "within": "TransmitterPdu.serialize",
    "old": "    .expr (.method (.name I.outputStream) I.write_uint16 [.attr (.name I.self) I.cryptoSystem] []),",
    "new": "    .expr (.method (.name I.outputStream) I.write_uint32 [.attr (.name I.self) I.cryptoSystem] []),",
    "descr": "I.write_uint16 -> I.write_uint32 in: .expr (.method (.name I.outputStream) I.write_uint16 [.attr (.name I.self) I.cryptoSystem] []),"
   },
   {
    "file": "Verif/Source/Dis3.lean",
    "within": "TransmitterPdu.parse",
    "old": "    .assign (.attr (.name I.self) I.cryptoKeyId) (.method (.name I.inputStream) I.read_uint16 [] []),\n    .assign (.name I.modulationParametersLength) (.method (.name I.inputStream) I.read_uint8 [] []),\n",
    "new": "    .assign (.name I.modulationParametersLength) (.method (.name I.inputStream) I.read_uint8 [] []),\n    .assign (.attr (.name I.self) I.cryptoKeyId) (.method (.name I.inputStream) I.read_uint16 [] []),\n",
    "descr": "swapped: .assign (.attr (.name I.self) I.cryptoKeyId) (.method (.name I.inputStream) I.read_uint16 [] []), / .assign (.name I.modulationParametersLength) (.method (.name I.inputStream) I.read_uint8 [] []),"
   },
   {
    "file": "Verif/Source/Dis3.lean",
    "within": "ElectromagneticEmissionsPdu.serialize",
    "old": "    .expr (.method (.name I.outputStream) I.write_unsigned_byte [.attr (.name I.self) I.stateUpdateIndicator] []),",
    "new": "    .expr (.method (.name I.outputStream) I.write_byte [.attr (.name I.self) I.stateUpdateIndicator] []),",
    "descr": "I.write_unsigned_byte -> I.write_byte in: .expr (.method (.name I.outputStream) I.write_unsigned_byte [.attr (.name I.self) I.stateUpdateIndicator] []),"
   },
   {
    "file": "Verif/Source/Dis3.lean",
    "within": "ElectromagneticEmissionsPdu.parse",
    "old": "    .assign (.name I.numberOfSystems) (.method (.name I.inputStream) I.read_unsigned_byte [] []),\n    .assign (.attr (.name I.self) I.paddingForEmissionsPdu) (.method (.name I.inputStream) I.read_unsigned_short [] []),\n",
    "new": "    .assign (.attr (.name I.self) I.paddingForEmissionsPdu) (.method (.name I.inputStream) I.read_unsigned_short [] []),\n    .assign (.name I.numberOfSystems) (.method (.name I.inputStream) I.read_unsigned_byte [] []),\n",
    "descr": "swapped: .assign (.name I.numberOfSystems) (.method (.name I.inputStream) I.read_unsigned_byte [] []), / .assign (.attr (.name I.self) I.paddingForEmissionsPdu) (.method (.name I.inputStream) I.read_unsigned_short [] []),"
   },
   {
    "file": "Verif/Source/Dis3.lean",
    "within": "EmissionSystemBeamRecord.serialize",
    "old": "    .expr (.method (.name I.outputStream) I.write_unsigned_byte [.attr (.name I.self) I.beamFunction] []),",
    "new": "    .expr (.method (.name I.outputStream) I.write_byte [.attr (.name I.self) I.beamFunction] []),",
    "descr": "I.write_unsigned_byte -> I.write_byte in: .expr (.method (.name I.outputStream) I.write_unsigned_byte [.attr (.name I.self) I.beamFunction] []),"
   },
   {
    "file": "Verif/Source/Dis3.lean",
    "within": "EmissionSystemBeamRecord.parse",
    "old": "    .assign (.attr (.name I.self) I.beamFunction) (.method (.name I.inputStream) I.read_unsigned_byte [] []),",
    "new": "    .assign (.attr (.name I.self) I.beamFunction) (.method (.name I.inputStream) I.read_byte [] []),",
    "descr": "I.read_unsigned_byte -> I.read_byte in: .assign (.attr (.name I.self) I.beamFunction) (.method (.name I.inputStream) I.read_unsigned_byte [] []),"
   },
   {
    "file": "Verif/Source/Dis3.lean",
    "within": "EmissionSystemRecord.serialize",
    "old": "    .expr (.method (.name I.outputStream) I.write_unsigned_byte [.attr (.name I.self) I.numberOfBeams] []),\n    .expr (.method (.name I.outputStream) I.write_unsigned_short [.int 0] []),\n",
    "new": "    .expr (.method (.name I.outputStream) I.write_unsigned_short [.int 0] []),\n    .expr (.method (.name I.outputStream) I.write_unsigned_byte [.attr (.name I.self) I.numberOfBeams] []),\n",
    "descr": "swapped: .expr (.method (.name I.outputStream) I.write_unsigned_byte [.attr (.name I.self) I.numberOfBeams] []), / .expr (.method (.name I.outputStream) I.write_unsigned_short [.int 0] []),"
   },
   {
    "file": "Verif/Source/Dis3.lean",
    "within": "EmissionSystemRecord.parse",
    "old": "    .assign (.name I.numberOfBeams) (.method (.name I.inputStream) I.read_unsigned_byte [] []),\n    .expr (.method (.name I.inputStream) I.read_unsigned_short [] []),\n",
    "new": "    .expr (.method (.name I.inputStream) I.read_unsigned_short [] []),\n    .assign (.name I.numberOfBeams) (.method (.name I.inputStream) I.read_unsigned_byte [] []),\n",
    "descr": "swapped: .assign (.name I.numberOfBeams) (.method (.name I.inputStream) I.read_unsigned_byte [] []), / .expr (.method (.name I.inputStream) I.read_unsigned_short [] []),"
   },
   {
    "file": "Verif/Source/Dis3.lean",
    "within": "ResupplyOfferPdu.serialize",
    "old": "    .expr (.method (.name I.outputStream) I.write_unsigned_byte [.attr (.name I.self) I.numberOfSupplyTypes] []),",
    "new": "    .expr (.method (.name I.outputStream) I.write_byte [.attr (.name I.self) I.numberOfSupplyTypes] []),",
    "descr": "I.write_unsigned_byte -> I.write_byte in: .expr (.method (.name I.outputStream) I.write_unsigned_byte [.attr (.name I.self) I.numberOfSupplyTypes] []),"
   },
   {
    "file": "Verif/Source/Dis3.lean",
    "within": "ResupplyOfferPdu.parse",
    "old": "    .for I.idx (.call I.range [.int 0, .name I.numberOfSupplyTypes] [])",
    "new": "    .for I.idx (.call I.range [.int 1, .name I.numberOfSupplyTypes] [])",
    "descr": ".int 0 -> .int 1 in: .for I.idx (.call I.range [.int 0, .name I.numberOfSupplyTypes] [])"
   }
  ]
 },
 {
  "id": "U4",
  "definition": "Verif/Source/Dis4.lean",
  "claim": "the classes do what their text says (C77)",
  "expect": [
   "C77"
  ],
  "edits": [
   {
    "file": "Verif/Source/Dis4.lean",
    "within": "AttributePdu.serialize",
    "old": "    .expr (.method (.name I.outputStream) I.write_unsigned_byte [.attr (.name I.self) I.attributeRecordProtocolVersion] []),",
    "new": "    .expr (.method (.name I.outputStream) I.write_byte [.attr (.name I.self) I.attributeRecordProtocolVersion] []),",
    "descr": "I.write_unsigned_byte -> I.write_byte in: .expr (.method (.name I.outputStream) I.write_unsigned_byte [.attr (.name I.self) I.attributeRecordProtocolVersion] []),"
   },
   {
    "file": "Verif/Source/Dis4.lean",
    "within": "AttributePdu.parse",
    "old": "    .assign (.attr (.name I.self) I.attributeRecordPduType) (.method (.name I.inputStream) I.read_unsigned_byte [] []),",
    "new": "    .assign (.attr (.name I.self) I.attributeRecordPduType) (.method (.name I.inputStream) I.read_byte [] []),",
    "descr": "I.read_unsigned_byte -> I.read_byte in: .assign (.attr (.name I.self) I.attributeRecordPduType) (.method (.name I.inputStream) I.read_unsigned_byte [] []),"
   },
   {
    "file": "Verif/Source/Dis4.lean",
    "within": "SetDataReliablePdu.serialize",
    "old": "    .expr (.method (.name I.outputStream) I.write_unsigned_short [.attr (.name I.self) I.pad1] []),",
    "new": "    .expr (.method (.name I.outputStream) I.write_short [.attr (.name I.self) I.pad1] []),",
    "descr": "I.write_unsigned_short -> I.write_short in: .expr (.method (.name I.outputStream) I.write_unsigned_short [.attr (.name I.self) I.pad1] []),"
   },
   {
    "file": "Verif/Source/Dis4.lean",
    "within": "SetDataReliablePdu.parse",
    "old": "    .assign (.attr (.name I.self) I.pad1) (.method (.name I.inputStream) I.read_unsigned_short [] []),\n",
    "new": "",
    "descr": "dropped: .assign (.attr (.name I.self) I.pad1) (.method (.name I.inputStream) I.read_unsigned_short [] []),"
   },
   {
    "file": "Verif/Source/Dis4.lean",
    "within": "EventReportPdu.serialize",
    "old": "    .expr (.method (.name I.outputStream) I.write_unsigned_int [.attr (.name I.self) I.eventType] []),\n",
    "new": "",
    "descr": "dropped: .expr (.method (.name I.outputStream) I.write_unsigned_int [.attr (.name I.self) I.eventType] []),"
   },
   {
    "file": "Verif/Source/Dis4.lean",
    "within": "EventReportPdu.parse",
    "old": "    .assign (.attr (.name I.self) I.padding1) (.method (.name I.inputStream) I.read_unsigned_int [] []),",
    "new": "    .assign (.attr (.name I.self) I.padding1) (.method (.name I.inputStream) I.read_unsigned_short [] []),",
    "descr": "I.read_unsigned_int -> I.read_unsigned_short in: .assign (.attr (.name I.self) I.padding1) (.method (.name I.inputStream) I.read_unsigned_int [] []),"
   },
   {
    "file": "Verif/Source/Dis4.lean",
    "within": "PointObjectStatePdu.serialize",
    "old": "    .expr (.method (.name I.outputStream) I.write_unsigned_byte [.attr (.name I.self) I.forceID] []),",
    "new": "    .expr (.method (.name I.outputStream) I.write_byte [.attr (.name I.self) I.forceID] []),",
    "descr": "I.write_unsigned_byte -> I.write_byte in: .expr (.method (.name I.outputStream) I.write_unsigned_byte [.attr (.name I.self) I.forceID] []),"
   },
   {
    "file": "Verif/Source/Dis4.lean",
    "within": "PointObjectStatePdu.parse",
    "old": "    .expr (.method (.attr (.name I.self) I.objectLocation) I.parse [.name I.inputStream] []),\n",
    "new": "",
    "descr": "dropped: .expr (.method (.attr (.name I.self) I.objectLocation) I.parse [.name I.inputStream] []),"
   },
   {
    "file": "Verif/Source/Dis4.lean",
    "within": "DataPdu.serialize",
    "old": "    .expr (.method (.name I.outputStream) I.write_unsigned_int [.attr (.name I.self) I.padding1] []),",
    "new": "    .expr (.method (.name I.outputStream) I.write_unsigned_short [.attr (.name I.self) I.padding1] []),",
    "descr": "I.write_unsigned_int -> I.write_unsigned_short in: .expr (.method (.name I.outputStream) I.write_unsigned_int [.attr (.name I.self) I.padding1] []),"
   },
   {
    "file": "Verif/Source/Dis4.lean",
    "within": "DataPdu.parse",
    "old": "    .assign (.attr (.name I.self) I.requestID) (.method (.name I.inputStream) I.read_unsigned_int [] []),",
    "new": "    .assign (.attr (.name I.self) I.requestID) (.method (.name I.inputStream) I.read_unsigned_short [] []),",
    "descr": "I.read_unsigned_int -> I.read_unsigned_short in: .assign (.attr (.name I.self) I.requestID) (.method (.name I.inputStream) I.read_unsigned_int [] []),"
   },
   {
    "file": "Verif/Source/Dis4.lean",
    "within": "FastEntityStatePdu.serialize",
    "old": "    .expr (.method (.name I.outputStream) I.write_unsigned_short [.attr (.name I.self) I.entity] []),",
    "new": "    .expr (.method (.name I.outputStream) I.write_short [.attr (.name I.self) I.entity] []),",
    "descr": "I.write_unsigned_short -> I.write_short in: .expr (.method (.name I.outputStream) I.write_unsigned_short [.attr (.name I.self) I.entity] []),"
   },
   {
    "file": "Verif/Source/Dis4.lean",
    "within": "FastEntityStatePdu.parse",
    "old": "    .assign (.attr (.name I.self) I.altEntityKind) (.method (.name I.inputStream) I.read_unsigned_byte [] []),",
    "new": "    .assign (.attr (.name I.self) I.altEntityKind) (.method (.name I.inputStream) I.read_byte [] []),",
    "descr": "I.read_unsigned_byte -> I.read_byte in: .assign (.attr (.name I.self) I.altEntityKind) (.method (.name I.inputStream) I.read_unsigned_byte [] []),"
   },
   {
    "file": "Verif/Source/Dis4.lean",
    "within": "AcknowledgeReliablePdu.serialize",
    "old": "    .expr (.method (.name I.outputStream) I.write_unsigned_short [.attr (.name I.self) I.acknowledgeFlag] []),\n    .expr (.method (.name I.outputStream) I.write_unsigned_short [.attr (.name I.self) I.responseFlag] []),\n",
    "new": "    .expr (.method (.name I.outputStream) I.write_unsigned_short [.attr (.name I.self) I.responseFlag] []),\n    .expr (.method (.name I.outputStream) I.write_unsigned_short [.attr (.name I.self) I.acknowledgeFlag] []),\n",
    "descr": "swapped: .expr (.method (.name I.outputStream) I.write_unsigned_short [.attr (.name I.self) I.acknowledgeFlag] []), / .expr (.method (.name I.outputStream) I.write_unsigned_short [.attr (.name I.self) I.responseFlag] []),"
   },
   {
    "file": "Verif/Source/Dis4.lean",
    "within": "AcknowledgeReliablePdu.parse",
    "old": "    .assign (.attr (.name I.self) I.requestID) (.method (.name I.inputStream) I.read_unsigned_int [] [])]",
    "new": "    .assign (.attr (.name I.self) I.requestID) (.method (.name I.inputStream) I.read_unsigned_short [] [])]",
    "descr": "I.read_unsigned_int -> I.read_unsigned_short in: .assign (.attr (.name I.self) I.requestID) (.method (.name I.inputStream) I.read_unsigned_int [] [])]"
   },
   {
    "file": "Verif/Source/Dis4.lean",
    "within": "StartResumeReliablePdu.serialize",
    "old": "    .expr (.method (.name I.outputStream) I.write_unsigned_int [.attr (.name I.self) I.requestID] [])]",
    "new": "    .expr (.method (.name I.outputStream) I.write_unsigned_short [.attr (.name I.self) I.requestID] [])]",
    "descr": "I.write_unsigned_int -> I.write_unsigned_short in: .expr (.method (.name I.outputStream) I.write_unsigned_int [.attr (.name I.self) I.requestID] [])]"
   },
   {
    "file": "Verif/Source/Dis4.lean",
    "within": "StartResumeReliablePdu.parse",
    "old": "    .expr (.method (.attr (.name I.self) I.realWorldTime) I.parse [.name I.inputStream] []),\n",
    "new": "",
    "descr": "dropped: .expr (.method (.attr (.name I.self) I.realWorldTime) I.parse [.name I.inputStream] []),"
   },
   {
    "file": "Verif/Source/Dis4.lean",
    "within": "ArealObjectStatePdu.serialize",
    "old": "    .expr (.method (.name I.outputStream) I.write_unsigned_short [.attr (.name I.self) I.updateNumber] []),\n",
    "new": "",
    "descr": "dropped: .expr (.method (.name I.outputStream) I.write_unsigned_short [.attr (.name I.self) I.updateNumber] []),"
   },
   {
    "file": "Verif/Source/Dis4.lean",
    "within": "ArealObjectStatePdu.parse",
    "old": "    .expr (.method (.attr (.name I.self) I.objectID) I.parse [.name I.inputStream] []),\n",
    "new": "",
    "descr": "dropped: .expr (.method (.attr (.name I.self) I.objectID) I.parse [.name I.inputStream] []),"
   },
   {
    "file": "Verif/Source/Dis4.lean",
    "within": "DataQueryReliablePdu.serialize",
    "old": "    .expr (.method (.name I.outputStream) I.write_unsigned_byte [.attr (.name I.self) I.pad2] []),",
    "new": "    .expr (.method (.name I.outputStream) I.write_byte [.attr (.name I.self) I.pad2] []),",
    "descr": "I.write_unsigned_byte -> I.write_byte in: .expr (.method (.name I.outputStream) I.write_unsigned_byte [.attr (.name I.self) I.pad2] []),"
   },
   {
    "file": "Verif/Source/Dis4.lean",
    "within": "DataQueryReliablePdu.parse",
    "old": "    .assign (.attr (.name I.self) I.requestID) (.method (.name I.inputStream) I.read_unsigned_int [] []),",
    "new": "    .assign (.attr (.name I.self) I.requestID) (.method (.name I.inputStream) I.read_unsigned_short [] []),",
    "descr": "I.read_unsigned_int -> I.read_unsigned_short in: .assign (.attr (.name I.self) I.requestID) (.method (.name I.inputStream) I.read_unsigned_int [] []),"
   },
   {
    "file": "Verif/Source/Dis4.lean",
    "within": "MinefieldStatePdu.serialize",
    "old": "    .expr (.method (.name I.outputStream) I.write_unsigned_short [.attr (.name I.self) I.minefieldSequence] []),\n    .expr (.method (.name I.outputStream) I.write_unsigned_byte [.attr (.name I.self) I.forceID] []),\n",
    "new": "    .expr (.method (.name I.outputStream) I.write_unsigned_byte [.attr (.name I.self) I.forceID] []),\n    .expr (.method (.name I.outputStream) I.write_unsigned_short [.attr (.name I.self) I.minefieldSequence] []),\n",
    "descr": "swapped: .expr (.method (.name I.outputStream) I.write_unsigned_short [.attr (.name I.self) I.minefieldSequence] []), / .expr (.method (.name I.outputStream) I.write_unsigned_byte [.attr (.name I.self) I.forceID] []),"
   },
   {
    "file": "Verif/Source/Dis4.lean",
    "within": "MinefieldStatePdu.parse",
    "old": "    .assign (.name I.numberOfMineTypes) (.method (.name I.inputStream) I.read_unsigned_short [] []),",
    "new": "    .assign (.name I.numberOfMineTypes) (.method (.name I.inputStream) I.read_short [] []),",
    "descr": "I.read_unsigned_short -> I.read_short in: .assign (.name I.numberOfMineTypes) (.method (.name I.inputStream) I.read_unsigned_short [] []),"
   },
   {
    "file": "Verif/Source/Dis4.lean",
    "within": "DataReliablePdu.serialize",
    "old": "    .expr (.method (.name I.outputStream) I.write_unsigned_short [.attr (.name I.self) I.pad1] []),\n    .expr (.method (.name I.outputStream) I.write_unsigned_byte [.attr (.name I.self) I.pad2] []),\n",
    "new": "    .expr (.method (.name I.outputStream) I.write_unsigned_byte [.attr (.name I.self) I.pad2] []),\n    .expr (.method (.name I.outputStream) I.write_unsigned_short [.attr (.name I.self) I.pad1] []),\n",
    "descr": "swapped: .expr (.method (.name I.outputStream) I.write_unsigned_short [.attr (.name I.self) I.pad1] []), / .expr (.method (.name I.outputStream) I.write_unsigned_byte [.attr (.name I.self) I.pad2] []),"
   },
   {
    "file": "Verif/Source/Dis4.lean",
    "within": "DataReliablePdu.parse",
    "old": "    .assign (.attr (.name I.self) I.pad1) (.method (.name I.inputStream) I.read_unsigned_short [] []),\n",
    "new": "",
    "descr": "dropped: .assign (.attr (.name I.self) I.pad1) (.method (.name I.inputStream) I.read_unsigned_short [] []),"
   },
   {
    "file": "Verif/Source/Dis4.lean",
    "within": "DirectedEnergyFirePdu.serialize",
    "old": "    .expr (.method (.name I.outputStream) I.write_uint32 [.attr (.name I.self) I.padding3] []),",
    "new": "    .expr (.method (.name I.outputStream) I.write_uint16 [.attr (.name I.self) I.padding3] []),",
    "descr": "I.write_uint32 -> I.write_uint16 in: .expr (.method (.name I.outputStream) I.write_uint32 [.attr (.name I.self) I.padding3] []),"
   },
   {
    "file": "Verif/Source/Dis4.lean",
    "within": "DirectedEnergyFirePdu.parse",
    "old": "    .assign (.attr (.name I.self) I.apertureDiameter) (.method (.name I.inputStream) I.read_float32 [] []),",
    "new": "    .assign (.attr (.name I.self) I.apertureDiameter) (.method (.name I.inputStream) I.read_float64 [] []),",
    "descr": "I.read_float32 -> I.read_float64 in: .assign (.attr (.name I.self) I.apertureDiameter) (.method (.name I.inputStream) I.read_float32 [] []),"
   },
   {
    "file": "Verif/Source/Dis4.lean",
    "within": "DetonationPdu.serialize",
    "old": "    .expr (.method (.name I.outputStream) I.write_unsigned_byte [.attr (.name I.self) I.detonationResult] []),",
    "new": "    .expr (.method (.name I.outputStream) I.write_byte [.attr (.name I.self) I.detonationResult] []),",
    "descr": "I.write_unsigned_byte -> I.write_byte in: .expr (.method (.name I.outputStream) I.write_unsigned_byte [.attr (.name I.self) I.detonationResult] []),"
   },
   {
    "file": "Verif/Source/Dis4.lean",
    "within": "DetonationPdu.parse",
    "old": "    .assign (.attr (.name I.self) I.pad) (.method (.name I.inputStream) I.read_unsigned_short [] []),",
    "new": "    .assign (.attr (.name I.self) I.pad) (.method (.name I.inputStream) I.read_short [] []),",
    "descr": "I.read_unsigned_short -> I.read_short in: .assign (.attr (.name I.self) I.pad) (.method (.name I.inputStream) I.read_unsigned_short [] []),"
   },
   {
    "file": "Verif/Source/Dis4.lean",
    "within": "SetDataPdu.serialize",
    "old": "    .expr (.method (.name I.outputStream) I.write_unsigned_int [.attr (.name I.self) I.requestID] []),\n",
    "new": "",
    "descr": "dropped: .expr (.method (.name I.outputStream) I.write_unsigned_int [.attr (.name I.self) I.requestID] []),"
   },
   {
    "file": "Verif/Source/Dis4.lean",
    "within": "SetDataPdu.parse",
    "old": "    .assign (.attr (.name I.self) I.padding1) (.method (.name I.inputStream) I.read_unsigned_int [] []),",
    "new": "    .assign (.attr (.name I.self) I.padding1) (.method (.name I.inputStream) I.read_unsigned_short [] []),",
    "descr": "I.read_unsigned_int -> I.read_unsigned_short in: .assign (.attr (.name I.self) I.padding1) (.method (.name I.inputStream) I.read_unsigned_int [] []),"
   },
   {
    "file": "Verif/Source/Dis4.lean",
    "within": "RecordQueryReliablePdu.serialize",
    "old": "    .expr (.method (.name I.outputStream) I.write_unsigned_byte [.attr (.name I.self) I.requiredReliabilityService] []),\n",
    "new": "",
    "descr": "dropped: .expr (.method (.name I.outputStream) I.write_unsigned_byte [.attr (.name I.self) I.requiredReliabilityService] []),"
   },
   {
    "file": "Verif/Source/Dis4.lean",
    "within": "RecordQueryReliablePdu.parse",
    "old": "    .assign (.attr (.name I.self) I.eventType) (.method (.name I.inputStream) I.read_unsigned_short [] []),",
    "new": "    .assign (.attr (.name I.self) I.eventType) (.method (.name I.inputStream) I.read_short [] []),",
    "descr": "I.read_unsigned_short -> I.read_short in: .assign (.attr (.name I.self) I.eventType) (.method (.name I.inputStream) I.read_unsigned_short [] []),"
   },
   {
    "file": "Verif/Source/Dis4.lean",
    "within": "ActionResponsePdu.serialize",
    "old": "    .expr (.method (.name I.outputStream) I.write_unsigned_int [.attr (.name I.self) I.requestStatus] []),",
    "new": "    .expr (.method (.name I.outputStream) I.write_unsigned_short [.attr (.name I.self) I.requestStatus] []),",
    "descr": "I.write_unsigned_int -> I.write_unsigned_short in: .expr (.method (.name I.outputStream) I.write_unsigned_int [.attr (.name I.self) I.requestStatus] []),"
   },
   {
    "file": "Verif/Source/Dis4.lean",
    "within": "ActionResponsePdu.parse",
    "old": "    .assign (.attr (.name I.self) I.requestID) (.method (.name I.inputStream) I.read_unsigned_int [] []),",
    "new": "    .assign (.attr (.name I.self) I.requestID) (.method (.name I.inputStream) I.read_unsigned_short [] []),",
    "descr": "I.read_unsigned_int -> I.read_unsigned_short in: .assign (.attr (.name I.self) I.requestID) (.method (.name I.inputStream) I.read_unsigned_int [] []),"
   },
   {
    "file": "Verif/Source/Dis4.lean",
    "within": "EntityDamageStatusPdu.serialize",
    "old": "    .expr (.method (.name I.outputStream) I.write_uint16 [.attr (.name I.self) I.damageDescriptionCount] []),",
    "new": "    .expr (.method (.name I.outputStream) I.write_uint32 [.attr (.name I.self) I.damageDescriptionCount] []),",
    "descr": "I.write_uint16 -> I.write_uint32 in: .expr (.method (.name I.outputStream) I.write_uint16 [.attr (.name I.self) I.damageDescriptionCount] []),"
   },
   {
    "file": "Verif/Source/Dis4.lean",
    "within": "EntityDamageStatusPdu.parse",
    "old": "    .assign (.name I.damageDescriptionCount) (.method (.name I.inputStream) I.read_uint16 [] []),\n",
    "new": "",
    "descr": "dropped: .assign (.name I.damageDescriptionCount) (.method (.name I.inputStream) I.read_uint16 [] []),"
   },
   {
    "file": "Verif/Source/Dis4.lean",
    "within": "FirePdu.serialize",
    "old": "    .expr (.method (.name I.outputStream) I.write_unsigned_int [.attr (.name I.self) I.fireMissionIndex] []),",
    "new": "    .expr (.method (.name I.outputStream) I.write_unsigned_short [.attr (.name I.self) I.fireMissionIndex] []),",
    "descr": "I.write_unsigned_int -> I.write_unsigned_short in: .expr (.method (.name I.outputStream) I.write_unsigned_int [.attr (.name I.self) I.fireMissionIndex] []),"
   },
   {
    "file": "Verif/Source/Dis4.lean",
    "within": "FirePdu.parse",
    "old": "    .expr (.method (.attr (.name I.self) I.eventID) I.parse [.name I.inputStream] []),\n",
    "new": "",
    "descr": "dropped: .expr (.method (.attr (.name I.self) I.eventID) I.parse [.name I.inputStream] []),"
   },
   {
    "file": "Verif/Source/Dis4.lean",
    "within": "ReceiverPdu.serialize",
    "old": "    .expr (.method (.name I.outputStream) I.write_float [.attr (.name I.self) I.receivedPower] []),\n",
    "new": "",
    "descr": "dropped: .expr (.method (.name I.outputStream) I.write_float [.attr (.name I.self) I.receivedPower] []),"
   },
   {
    "file": "Verif/Source/Dis4.lean",
    "within": "ReceiverPdu.parse",
    "old": "    .expr (.method (.attr (.name I.self) I.transmitterEntityID) I.parse [.name I.inputStream] []),\n",
    "new": "",
    "descr": "dropped: .expr (.method (.attr (.name I.self) I.transmitterEntityID) I.parse [.name I.inputStream] []),"
   },
   {
    "file": "Verif/Source/Dis4.lean",
    "within": "UaPdu.serialize",
    "old": "    .expr (.method (.name I.outputStream) I.write_unsigned_byte [.attr (.name I.self) I.numberOfUAEmitterSystems] []),",
    "new": "    .expr (.method (.name I.outputStream) I.write_byte [.attr (.name I.self) I.numberOfUAEmitterSystems] []),",
    "descr": "I.write_unsigned_byte -> I.write_byte in: .expr (.method (.name I.outputStream) I.write_unsigned_byte [.attr (.name I.self) I.numberOfUAEmitterSystems] []),"
   },
   {
    "file": "Verif/Source/Dis4.lean",
    "within": "UaPdu.parse",
    "old": "    .assign (.name I.numberOfAPAs) (.method (.name I.inputStream) I.read_unsigned_byte [] []),",
    "new": "    .assign (.name I.numberOfAPAs) (.method (.name I.inputStream) I.read_byte [] []),",
    "descr": "I.read_unsigned_byte -> I.read_byte in: .assign (.name I.numberOfAPAs) (.method (.name I.inputStream) I.read_unsigned_byte [] []),"
   },
   {
    "file": "Verif/Source/Dis4.lean",
    "within": "IntercomControlPdu.serialize",
    "old": "    .expr (.method (.name I.outputStream) I.write_unsigned_byte [.attr (.name I.self) I.controlType] []),\n    .expr (.method (.name I.outputStream) I.write_unsigned_byte [.attr (.name I.self) I.communicationsChannelType] []),\n",
    "new": "    .expr (.method (.name I.outputStream) I.write_unsigned_byte [.attr (.name I.self) I.communicationsChannelType] []),\n    .expr (.method (.name I.outputStream) I.write_unsigned_byte [.attr (.name I.self) I.controlType] []),\n",
    "descr": "swapped: .expr (.method (.name I.outputStream) I.write_unsigned_byte [.attr (.name I.self) I.controlType] []), / .expr (.method (.name I.outputStream) I.write_unsigned_byte [.attr (.name I.self) I.communicationsChannelType] []),"
   },
   {
    "file": "Verif/Source/Dis4.lean",
    "within": "IntercomControlPdu.parse",
    "old": "    .assign (.attr (.name I.self) I.controlType) (.method (.name I.inputStream) I.read_unsigned_byte [] []),\n    .assign (.attr (.name I.self) I.communicationsChannelType) (.method (.name I.inputStream) I.read_unsigned_byte [] []),\n",
    "new": "    .assign (.attr (.name I.self) I.communicationsChannelType) (.method (.name I.inputStream) I.read_unsigned_byte [] []),\n    .assign (.attr (.name I.self) I.controlType) (.method (.name I.inputStream) I.read_unsigned_byte [] []),\n",
    "descr": "swapped: .assign (.attr (.name I.self) I.controlType) (.method (.name I.inputStream) I.read_unsigned_byte [] []), / .assign (.attr (.name I.self) I.communicationsChannelType) (.method (.name I.inputStream) I.read_unsigned_byte [] []),"
   },
   {
    "file": "Verif/Source/Dis4.lean",
    "within": "SignalPdu.serialize",
    "old": "    .expr (.method (.name I.outputStream) I.write_unsigned_short [.attr (.name I.self) I.tdlType] []),\n    .expr (.method (.name I.outputStream) I.write_unsigned_int [.attr (.name I.self) I.sampleRate] []),\n",
    "new": "    .expr (.method (.name I.outputStream) I.write_unsigned_int [.attr (.name I.self) I.sampleRate] []),\n    .expr (.method (.name I.outputStream) I.write_unsigned_short [.attr (.name I.self) I.tdlType] []),\n",
    "descr": "swapped: .expr (.method (.name I.outputStream) I.write_unsigned_short [.attr (.name I.self) I.tdlType] []), / .expr (.method (.name I.outputStream) I.write_unsigned_int [.attr (.name I.self) I.sampleRate] []),"
   },
   {
    "file": "Verif/Source/Dis4.lean",
    "within": "SignalPdu.parse",
    "old": "    .assign (.attr (.name I.self) I.radioID) (.method (.name I.inputStream) I.read_unsigned_short [] []),",
    "new": "    .assign (.attr (.name I.self) I.radioID) (.method (.name I.inputStream) I.read_short [] []),",
    "descr": "I.read_unsigned_short -> I.read_short in: .assign (.attr (.name I.self) I.radioID) (.method (.name I.inputStream) I.read_unsigned_short [] []),"
   },
   {
    "file": "Verif/Source/Dis4.lean",
    "within": "RemoveEntityReliablePdu.serialize",
    "old": "    .expr (.method (.name I.outputStream) I.write_unsigned_short [.attr (.name I.self) I.pad1] []),",
    "new": "    .expr (.method (.name I.outputStream) I.write_short [.attr (.name I.self) I.pad1] []),",
    "descr": "I.write_unsigned_short -> I.write_short in: .expr (.method (.name I.outputStream) I.write_unsigned_short [.attr (.name I.self) I.pad1] []),"
   },
   {
    "file": "Verif/Source/Dis4.lean",
    "within": "RemoveEntityReliablePdu.parse",
    "old": "    .assign (.attr (.name I.self) I.pad2) (.method (.name I.inputStream) I.read_unsigned_byte [] []),\n",
    "new": "",
    "descr": "dropped: .assign (.attr (.name I.self) I.pad2) (.method (.name I.inputStream) I.read_unsigned_byte [] []),"
   },
   {
    "file": "Verif/Source/Dis4.lean",
    "within": "SeesPdu.serialize",
    "old": "    .expr (.method (.name I.outputStream) I.write_unsigned_short [.attr (.name I.self) I.infraredSignatureRepresentationIndex] []),",
    "new": "    .expr (.method (.name I.outputStream) I.write_short [.attr (.name I.self) I.infraredSignatureRepresentationIndex] []),",
    "descr": "I.write_unsigned_short -> I.write_short in: .expr (.method (.name I.outputStream) I.write_unsigned_short [.attr (.name I.self) I.infraredSignatureRepresentationInde"
   },
   {
    "file": "Verif/Source/Dis4.lean",
    "within": "SeesPdu.parse",
    "old": "    .for I.idx (.call I.range [.int 0, .name I.numberOfVectoringNozzleSystems] [])",
    "new": "    .for I.idx (.call I.range [.int 1, .name I.numberOfVectoringNozzleSystems] [])",
    "descr": ".int 0 -> .int 1 in: .for I.idx (.call I.range [.int 0, .name I.numberOfVectoringNozzleSystems] [])"
   },
   {
    "file": "Verif/Source/Dis4.lean",
    "within": "CreateEntityReliablePdu.serialize",
    "old": "    .expr (.method (.name I.outputStream) I.write_unsigned_byte [.attr (.name I.self) I.pad2] []),",
    "new": "    .expr (.method (.name I.outputStream) I.write_byte [.attr (.name I.self) I.pad2] []),",
    "descr": "I.write_unsigned_byte -> I.write_byte in: .expr (.method (.name I.outputStream) I.write_unsigned_byte [.attr (.name I.self) I.pad2] []),"
   },
   {
    "file": "Verif/Source/Dis4.lean",
    "within": "CreateEntityReliablePdu.parse",
    "old": "    .assign (.attr (.name I.self) I.requiredReliabilityService) (.method (.name I.inputStream) I.read_unsigned_byte [] []),\n",
    "new": "",
    "descr": "dropped: .assign (.attr (.name I.self) I.requiredReliabilityService) (.method (.name I.inputStream) I.read_unsigned_byte [] []),"
   },
   {
    "file": "Verif/Source/Dis4.lean",
    "within": "StopFreezeReliablePdu.serialize",
    "old": "    .expr (.method (.name I.outputStream) I.write_unsigned_byte [.attr (.name I.self) I.frozenBehavior] []),\n",
    "new": "",
    "descr": "dropped: .expr (.method (.name I.outputStream) I.write_unsigned_byte [.attr (.name I.self) I.frozenBehavior] []),"
   },
   {
    "file": "Verif/Source/Dis4.lean",
    "within": "StopFreezeReliablePdu.parse",
    "old": "    .assign (.attr (.name I.self) I.requestID) (.method (.name I.inputStream) I.read_unsigned_int [] [])]",
    "new": "    .assign (.attr (.name I.self) I.requestID) (.method (.name I.inputStream) I.read_unsigned_short [] [])]",
    "descr": "I.read_unsigned_int -> I.read_unsigned_short in: .assign (.attr (.name I.self) I.requestID) (.method (.name I.inputStream) I.read_unsigned_int [] [])]"
   },
   {
    "file": "Verif/Source/Dis4.lean",
    "within": "EventReportReliablePdu.serialize",
    "old": "    .expr (.method (.name I.outputStream) I.write_unsigned_short [.attr (.name I.self) I.eventType] []),\n    .expr (.method (.name I.outputStream) I.write_unsigned_int [.attr (.name I.self) I.pad1] []),\n",
    "new": "    .expr (.method (.name I.outputStream) I.write_unsigned_int [.attr (.name I.self) I.pad1] []),\n    .expr (.method (.name I.outputStream) I.write_unsigned_short [.attr (.name I.self) I.eventType] []),\n",
    "descr": "swapped: .expr (.method (.name I.outputStream) I.write_unsigned_short [.attr (.name I.self) I.eventType] []), / .expr (.method (.name I.outputStream) I.write_unsigned_int [.attr (.name I.self) I.pad1] []),"
   },
   {
    "file": "Verif/Source/Dis4.lean",
    "within": "EventReportReliablePdu.parse",
    "old": "    .assign (.attr (.name I.self) I.pad1) (.method (.name I.inputStream) I.read_unsigned_int [] []),",
    "new": "    .assign (.attr (.name I.self) I.pad1) (.method (.name I.inputStream) I.read_unsigned_short [] []),",
    "descr": "I.read_unsigned_int -> I.read_unsigned_short in: .assign (.attr (.name I.self) I.pad1) (.method (.name I.inputStream) I.read_unsigned_int [] []),"
   },
   {
    "file": "Verif/Source/Dis4.lean",
    "within": "MinefieldResponseNackPdu.serialize",
    "old": "    .expr (.method (.name I.outputStream) I.write_unsigned_byte [.attr (.name I.self) I.numberOfMissingPdus] []),\n",
    "new": "",
    "descr": "dropped: .expr (.method (.name I.outputStream) I.write_unsigned_byte [.attr (.name I.self) I.numberOfMissingPdus] []),"
   },
   {
    "file": "Verif/Source/Dis4.lean",
    "within": "MinefieldResponseNackPdu.parse",
    "old": "    .assign (.name I.numberOfMissingPdus) (.method (.name I.inputStream) I.read_unsigned_byte [] []),\n",
    "new": "",
    "descr": "dropped: .assign (.name I.numberOfMissingPdus) (.method (.name I.inputStream) I.read_unsigned_byte [] []),"
   },
   {
    "file": "Verif/Source/Dis4.lean",
    "within": "ActionResponseReliablePdu.serialize",
    "old": "    .expr (.method (.name I.outputStream) I.write_unsigned_int [.attr (.name I.self) I.responseStatus] []),\n",
    "new": "",
    "descr": "dropped: .expr (.method (.name I.outputStream) I.write_unsigned_int [.attr (.name I.self) I.responseStatus] []),"
   },
   {
    "file": "Verif/Source/Dis4.lean",
    "within": "ActionResponseReliablePdu.parse",
    "old": "    .assign (.attr (.name I.self) I.responseStatus) (.method (.name I.inputStream) I.read_unsigned_int [] []),",
    "new": "    .assign (.attr (.name I.self) I.responseStatus) (.method (.name I.inputStream) I.read_unsigned_short [] []),",
    "descr": "I.read_unsigned_int -> I.read_unsigned_short in: .assign (.attr (.name I.self) I.responseStatus) (.method (.name I.inputStream) I.read_unsigned_int [] []),"
   },
   {
    "file": "Verif/Source/Dis4.lean",
    "within": "IsPartOfPdu.serialize",
    "old": "    .expr (.method (.attr (.name I.self) I.receivingEntityID) I.serialize [.name I.outputStream] []),\n",
    "new": "",
    "descr": "dropped: .expr (.method (.attr (.name I.self) I.receivingEntityID) I.serialize [.name I.outputStream] []),"
   },
   {
    "file": "Verif/Source/Dis4.lean",
    "within": "IsPartOfPdu.parse",
    "old": "    .expr (.method (.attr (.name I.self) I.partLocation) I.parse [.name I.inputStream] []),\n",
    "new": "",
    "descr": "dropped: .expr (.method (.attr (.name I.self) I.partLocation) I.parse [.name I.inputStream] []),"
   },
   {
    "file": "Verif/Source/Dis4.lean",
    "within": "AggregateStatePdu.serialize",
    "old": "    .expr (.method (.attr (.name I.self) I.aggregateID) I.serialize [.name I.outputStream] []),\n",
    "new": "",
    "descr": "dropped: .expr (.method (.attr (.name I.self) I.aggregateID) I.serialize [.name I.outputStream] []),"
   },
   {
    "file": "Verif/Source/Dis4.lean",
    "within": "AggregateStatePdu.parse",
    "old": "    .assign (.attr (.name I.self) I.forceID) (.method (.name I.inputStream) I.read_unsigned_byte [] []),",
    "new": "    .assign (.attr (.name I.self) I.forceID) (.method (.name I.inputStream) I.read_byte [] []),",
    "descr": "I.read_unsigned_byte -> I.read_byte in: .assign (.attr (.name I.self) I.forceID) (.method (.name I.inputStream) I.read_unsigned_byte [] []),"
   }
  ]
 },
 {
  "id": "U5",
  "definition": "Verif/Source/Records.lean",
  "claim": "the classes do what their text says (C77)",
  "expect": [
   "C77"
  ],
  "edits": [
   {
    "file": "Verif/Source/Records.lean",
    "within": "EntityIdentifier.serialize",
    "old": "    .expr (.method (.name I.outputStream) I.write_uint16 [.attr (.name I.self) I.entityNumber] [])]",
    "new": "    .expr (.method (.name I.outputStream) I.write_uint32 [.attr (.name I.self) I.entityNumber] [])]",
    "descr": "I.write_uint16 -> I.write_uint32 in: .expr (.method (.name I.outputStream) I.write_uint16 [.attr (.name I.self) I.entityNumber] [])]"
   },
   {
    "file": "Verif/Source/Records.lean",
    "within": "EntityIdentifier.parse",
    "old": "    .assign (.attr (.name I.self) I.entityNumber) (.method (.name I.inputStream) I.read_uint16 [] [])]",
    "new": "    .assign (.attr (.name I.self) I.entityNumber) (.method (.name I.inputStream) I.read_uint32 [] [])]",
    "descr": "I.read_uint16 -> I.read_uint32 in: .assign (.attr (.name I.self) I.entityNumber) (.method (.name I.inputStream) I.read_uint16 [] [])]"
   },
   {
    "file": "Verif/Source/Records.lean",
    "within": "EulerAngles.serialize",
    "old": "    .expr (.method (.name I.outputStream) I.write_float32 [.attr (.name I.self) I.phi] [])]",
    "new": "    .expr (.method (.name I.outputStream) I.write_float64 [.attr (.name I.self) I.phi] [])]",
    "descr": "I.write_float32 -> I.write_float64 in: .expr (.method (.name I.outputStream) I.write_float32 [.attr (.name I.self) I.phi] [])]"
   },
   {
    "file": "Verif/Source/Records.lean",
    "within": "EulerAngles.parse",
    "old": "    .assign (.attr (.name I.self) I.theta) (.method (.name I.inputStream) I.read_float32 [] []),",
    "new": "    .assign (.attr (.name I.self) I.theta) (.method (.name I.inputStream) I.read_float64 [] []),",
    "descr": "I.read_float32 -> I.read_float64 in: .assign (.attr (.name I.self) I.theta) (.method (.name I.inputStream) I.read_float32 [] []),"
   },
   {
    "file": "Verif/Source/Records.lean",
    "within": "EventIdentifier.serialize",
    "old": "    .expr (.method (.name I.outputStream) I.write_unsigned_short [.attr (.name I.self) I.eventNumber] [])]",
    "new": "    .expr (.method (.name I.outputStream) I.write_short [.attr (.name I.self) I.eventNumber] [])]",
    "descr": "I.write_unsigned_short -> I.write_short in: .expr (.method (.name I.outputStream) I.write_unsigned_short [.attr (.name I.self) I.eventNumber] [])]"
   },
   {
    "file": "Verif/Source/Records.lean",
    "within": "EventIdentifier.parse",
    "old": "    .assign (.attr (.name I.self) I.eventNumber) (.method (.name I.inputStream) I.read_unsigned_short [] [])]",
    "new": "    .assign (.attr (.name I.self) I.eventNumber) (.method (.name I.inputStream) I.read_short [] [])]",
    "descr": "I.read_unsigned_short -> I.read_short in: .assign (.attr (.name I.self) I.eventNumber) (.method (.name I.inputStream) I.read_unsigned_short [] [])]"
   },
   {
    "file": "Verif/Source/Records.lean",
    "within": "SimulationAddress.serialize",
    "old": "    .expr (.method (.name I.outputStream) I.write_unsigned_short [.attr (.name I.self) I.application] [])]",
    "new": "    .expr (.method (.name I.outputStream) I.write_short [.attr (.name I.self) I.application] [])]",
    "descr": "I.write_unsigned_short -> I.write_short in: .expr (.method (.name I.outputStream) I.write_unsigned_short [.attr (.name I.self) I.application] [])]"
   },
   {
    "file": "Verif/Source/Records.lean",
    "within": "SimulationAddress.parse",
    "old": "    .assign (.attr (.name I.self) I.application) (.method (.name I.inputStream) I.read_unsigned_short [] [])]",
    "new": "    .assign (.attr (.name I.self) I.application) (.method (.name I.inputStream) I.read_short [] [])]",
    "descr": "I.read_unsigned_short -> I.read_short in: .assign (.attr (.name I.self) I.application) (.method (.name I.inputStream) I.read_unsigned_short [] [])]"
   },
   {
    "file": "Verif/Source/Records.lean",
    "within": "Vector3Float.serialize",
    "old": "    .expr (.method (.name I.outputStream) I.write_float [.attr (.name I.self) I.y] []),\n",
    "new": "",
    "descr": "dropped: .expr (.method (.name I.outputStream) I.write_float [.attr (.name I.self) I.y] []),"
   },
   {
    "file": "Verif/Source/Records.lean",
    "within": "Vector3Float.parse",
    "old": "    .assign (.attr (.name I.self) I.y) (.method (.name I.inputStream) I.read_float [] []),\n",
    "new": "",
    "descr": "dropped: .assign (.attr (.name I.self) I.y) (.method (.name I.inputStream) I.read_float [] []),"
   },
   {
    "file": "Verif/Source/Records.lean",
    "within": "WorldCoordinates.serialize",
    "old": "    .expr (.method (.name I.outputStream) I.write_float64 [.attr (.name I.self) I.y] []),\n",
    "new": "",
    "descr": "dropped: .expr (.method (.name I.outputStream) I.write_float64 [.attr (.name I.self) I.y] []),"
   },
   {
    "file": "Verif/Source/Records.lean",
    "within": "WorldCoordinates.parse",
    "old": "    .assign (.attr (.name I.self) I.y) (.method (.name I.inputStream) I.read_float64 [] []),\n",
    "new": "",
    "descr": "dropped: .assign (.attr (.name I.self) I.y) (.method (.name I.inputStream) I.read_float64 [] []),"
   },
   {
    "file": "Verif/Source/Records.lean",
    "within": "StandardVariableRecord.serialize",
    "old": "    .expr (.method (.name I.outputStream) I.write_uint32 [.attr (.name I.self) I.recordType] []),\n",
    "new": "",
    "descr": "dropped: .expr (.method (.name I.outputStream) I.write_uint32 [.attr (.name I.self) I.recordType] []),"
   },
   {
    "file": "Verif/Source/Records.lean",
    "within": "StandardVariableRecord.parse",
    "old": "    .ite (.not (.cmp .eq (.bin .mod (.name I.bytelength) (.int 8)) (.int 0)))",
    "new": "    .ite (.not (.cmp .eq (.bin .mod (.name I.bytelength) (.int 8)) (.int 1)))",
    "descr": ".int 0 -> .int 1 in: .ite (.not (.cmp .eq (.bin .mod (.name I.bytelength) (.int 8)) (.int 0)))"
   },
   {
    "file": "Verif/Source/Records.lean",
    "within": "BeamAntennaPattern.serialize",
    "old": "    .expr (.method (.name I.outputStream) I.write_float32 [.attr (.name I.self) I.ex] []),",
    "new": "    .expr (.method (.name I.outputStream) I.write_float64 [.attr (.name I.self) I.ex] []),",
    "descr": "I.write_float32 -> I.write_float64 in: .expr (.method (.name I.outputStream) I.write_float32 [.attr (.name I.self) I.ex] []),"
   },
   {
    "file": "Verif/Source/Records.lean",
    "within": "BeamAntennaPattern.parse",
    "old": "    .assign (.attr (.name I.self) I.ex) (.method (.name I.inputStream) I.read_float32 [] []),\n",
    "new": "",
    "descr": "dropped: .assign (.attr (.name I.self) I.ex) (.method (.name I.inputStream) I.read_float32 [] []),"
   },
   {
    "file": "Verif/Source/Records.lean",
    "within": "SpreadSpectrum.parse",
    "old": "    .assign (.attr (.name I.self) I.frequencyHopping) (.call I.bool [.attr (.name I.record_bitfield) I.frequencyHopping] []),\n",
    "new": "",
    "descr": "dropped: .assign (.attr (.name I.self) I.frequencyHopping) (.call I.bool [.attr (.name I.record_bitfield) I.frequencyHopping] []),"
   },
   {
    "file": "Verif/Source/Records.lean",
    "within": "ModulationType.serialize",
    "old": "    .expr (.method (.name I.outputStream) I.write_uint16 [.attr (.name I.self) I.detail] []),\n",
    "new": "",
    "descr": "dropped: .expr (.method (.name I.outputStream) I.write_uint16 [.attr (.name I.self) I.detail] []),"
   },
   {
    "file": "Verif/Source/Records.lean",
    "within": "ModulationType.parse",
    "old": "    .assign (.attr (.name I.self) I.radioSystem) (.method (.name I.inputStream) I.read_uint16 [] [])]",
    "new": "    .assign (.attr (.name I.self) I.radioSystem) (.method (.name I.inputStream) I.read_uint32 [] [])]",
    "descr": "I.read_uint16 -> I.read_uint32 in: .assign (.attr (.name I.self) I.radioSystem) (.method (.name I.inputStream) I.read_uint16 [] [])]"
   },
   {
    "file": "Verif/Source/Records.lean",
    "within": "NetId.parse",
    "old": "    .assign (.attr (.name I.self) I.netNumber) (.attr (.name I.record_bitfield) I.netNumber),\n",
    "new": "",
    "descr": "dropped: .assign (.attr (.name I.self) I.netNumber) (.attr (.name I.record_bitfield) I.netNumber),"
   },
   {
    "file": "Verif/Source/Records.lean",
    "within": "BasicHaveQuickMP.serialize",
    "old": "    .expr (.method (.name I.outputStream) I.write_uint8 [.attr (.name I.self) I.reserved8_1] []),",
    "new": "    .expr (.method (.name I.outputStream) I.write_uint16 [.attr (.name I.self) I.reserved8_1] []),",
    "descr": "I.write_uint8 -> I.write_uint16 in: .expr (.method (.name I.outputStream) I.write_uint8 [.attr (.name I.self) I.reserved8_1] []),"
   },
   {
    "file": "Verif/Source/Records.lean",
    "within": "BasicHaveQuickMP.parse",
    "old": "    .assign (.attr (.name I.self) I.time_of_day) (.method (.name I.inputStream) I.read_uint32 [] []),",
    "new": "    .assign (.attr (.name I.self) I.time_of_day) (.method (.name I.inputStream) I.read_uint16 [] []),",
    "descr": "I.read_uint32 -> I.read_uint16 in: .assign (.attr (.name I.self) I.time_of_day) (.method (.name I.inputStream) I.read_uint32 [] []),"
   },
   {
    "file": "Verif/Source/Records.lean",
    "within": "CCTTSincgarsMP.serialize",
    "old": "    .expr (.method (.name I.outputStream) I.write_uint16 [.attr (.name I.self) I.transmission_security_key] []),\n",
    "new": "",
    "descr": "dropped: .expr (.method (.name I.outputStream) I.write_uint16 [.attr (.name I.self) I.transmission_security_key] []),"
   },
   {
    "file": "Verif/Source/Records.lean",
    "within": "CCTTSincgarsMP.parse",
    "old": "    .assign (.attr (.name I.self) I.start_of_message) (.method (.name I.inputStream) I.read_uint8 [] []),\n",
    "new": "",
    "descr": "dropped: .assign (.attr (.name I.self) I.start_of_message) (.method (.name I.inputStream) I.read_uint8 [] []),"
   },
   {
    "file": "Verif/Source/Records.lean",
    "within": "HighFidelityHAVEQUICKRadio.serialize",
    "old": "    .expr (.method (.name I.outputStream) I.write_uint16 [.attr (.name I.self) I.padding1] []),\n",
    "new": "",
    "descr": "dropped: .expr (.method (.name I.outputStream) I.write_uint16 [.attr (.name I.self) I.padding1] []),"
   },
   {
    "file": "Verif/Source/Records.lean",
    "within": "HighFidelityHAVEQUICKRadio.parse",
    "old": "    .assign (.attr (.name I.self) I.padding2) (.method (.name I.inputStream) I.read_uint8 [] []),",
    "new": "    .assign (.attr (.name I.self) I.padding2) (.method (.name I.inputStream) I.read_uint16 [] []),",
    "descr": "I.read_uint8 -> I.read_uint16 in: .assign (.attr (.name I.self) I.padding2) (.method (.name I.inputStream) I.read_uint8 [] []),"
   },
   {
    "file": "Verif/Source/Records.lean",
    "within": "DirectedEnergyDamage.serialize",
    "old": "    .expr (.method (.name I.outputStream) I.write_uint16 [.attr (.name I.self) I.padding] []),",
    "new": "    .expr (.method (.name I.outputStream) I.write_uint32 [.attr (.name I.self) I.padding] []),",
    "descr": "I.write_uint16 -> I.write_uint32 in: .expr (.method (.name I.outputStream) I.write_uint16 [.attr (.name I.self) I.padding] []),"
   },
   {
    "file": "Verif/Source/Records.lean",
    "within": "DirectedEnergyDamage.parse",
    "old": "    .expr (.method (.attr (.name I.self) I.damageLocation) I.parse [.name I.inputStream] []),\n",
    "new": "",
    "descr": "dropped: .expr (.method (.attr (.name I.self) I.damageLocation) I.parse [.name I.inputStream] []),"
   },
   {
    "file": "Verif/Source/Records.lean",
    "within": "DirectedEnergyAreaAimpoint.serialize",
    "old": "    .expr (.method (.name I.outputStream) I.write_uint16 [.attr (.name I.self) I.beamAntennaPatternCount] []),\n",
    "new": "",
    "descr": "dropped: .expr (.method (.name I.outputStream) I.write_uint16 [.attr (.name I.self) I.beamAntennaPatternCount] []),"
   },
   {
    "file": "Verif/Source/Records.lean",
    "within": "DirectedEnergyAreaAimpoint.parse",
    "old": "    .for I.\u00ab_\u00bb (.call I.range [.int 0, .name I.beamAntennaPatternCount] [])",
    "new": "    .for I.\u00ab_\u00bb (.call I.range [.int 1, .name I.beamAntennaPatternCount] [])",
    "descr": ".int 0 -> .int 1 in: .for I.\u00ab_\u00bb (.call I.range [.int 0, .name I.beamAntennaPatternCount] [])"
   },
   {
    "file": "Verif/Source/Records.lean",
    "within": "DirectedEnergyPrecisionAimpoint.serialize",
    "old": "    .expr (.method (.name I.outputStream) I.write_uint16 [.attr (.name I.self) I.padding] []),\n",
    "new": "",
    "descr": "dropped: .expr (.method (.name I.outputStream) I.write_uint16 [.attr (.name I.self) I.padding] []),"
   },
   {
    "file": "Verif/Source/Records.lean",
    "within": "DirectedEnergyPrecisionAimpoint.parse",
    "old": "    .assign (.attr (.name I.self) I.padding2) (.method (.name I.inputStream) I.read_uint32 [] [])]",
    "new": "    .assign (.attr (.name I.self) I.padding2) (.method (.name I.inputStream) I.read_uint16 [] [])]",
    "descr": "I.read_uint32 -> I.read_uint16 in: .assign (.attr (.name I.self) I.padding2) (.method (.name I.inputStream) I.read_uint32 [] [])]"
   },
   {
    "file": "Verif/Source/Records.lean",
    "within": "DirectedEnergyTargetEnergyDeposition.serialize",
    "old": "    .expr (.method (.name I.outputStream) I.write_uint16 [.attr (.name I.self) I.padding] []),",
    "new": "    .expr (.method (.name I.outputStream) I.write_uint32 [.attr (.name I.self) I.padding] []),",
    "descr": "I.write_uint16 -> I.write_uint32 in: .expr (.method (.name I.outputStream) I.write_uint16 [.attr (.name I.self) I.padding] []),"
   },
   {
    "file": "Verif/Source/Records.lean",
    "within": "DirectedEnergyTargetEnergyDeposition.parse",
    "old": "    .assign (.attr (.name I.self) I.peakIrradiance) (.method (.name I.inputStream) I.read_float32 [] [])]",
    "new": "    .assign (.attr (.name I.self) I.peakIrradiance) (.method (.name I.inputStream) I.read_float64 [] [])]",
    "descr": "I.read_float32 -> I.read_float64 in: .assign (.attr (.name I.self) I.peakIrradiance) (.method (.name I.inputStream) I.read_float32 [] [])]"
   }
  ]
 }
]