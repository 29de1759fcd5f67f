[
 {
  "id": "D20",
  "edits": [
   {
    "file": "Verif/Source/Calc.lean",
    "within": "deadReckoning.get_rotation_matrix",
    "old": "    .assign (.name N.r23) (.bin .sub (.bin .mul (.bin .mul (.name N.s_psi) (.name N.s_theta)) (.name N.c_phi)) (.bin .mul (.name N.c_psi) (.name N.s_phi))),",
    "new": "    .assign (.name N.r23) (.bin .sub (.bin .div (.bin .mul (.name N.s_psi) (.name N.s_theta)) (.name N.c_phi)) (.bin .mul (.name N.c_psi) (.name N.s_phi))),",
    "descr": ".bin .mul -> .bin .div in: .assign (.name N.r23) (.bin .sub (.bin .mul (.bin .mul (.name N.s_psi) (.name N.s_theta)) (.name N.c_phi)) (.bin .mul (."
   }
  ],
  "claim": "the numerical module does what its text says (C78)",
  "expect": [
   "C78"
  ],
  "definition": "deadReckoning.get_rotation_matrix"
 },
 {
  "id": "D21",
  "edits": [
   {
    "file": "Verif/Source/Calc.lean",
    "within": "deadReckoning.get_angular_velocity_matrix",
    "old": "    .ret (.method (.name N.np) N.array [.list [.list [.int 0, .neg (.name N.wz), .name N.wy], .list [.name N.wz, .int 0, .neg (.name N.wx)], .list [.neg (.name N.wy), .name N.wx, .int 0]]] [])]",
    "new": "    .ret (.method (.name N.np) N.array [.list [.list [.int 0, (.name N.wz), .name N.wy], .list [.name N.wz, .int 0, .neg (.name N.wx)], .list [.neg (.name N.wy), .name N.wx, .int 0]]] [])]",
    "descr": ".neg ->  in: .ret (.method (.name N.np) N.array [.list [.list [.int 0, .neg (.name N.wz), .name N.wy], .list [.name N.wz, .int 0, .ne"
   }
  ],
  "claim": "the numerical module does what its text says (C78)",
  "expect": [
   "C78"
  ],
  "definition": "deadReckoning.get_angular_velocity_matrix"
 },
 {
  "id": "D22",
  "edits": [
   {
    "file": "Verif/Source/Calc.lean",
    "within": "deadReckoning.drm_fpw",
    "old": "    .assign (.name N.new_position) (.bin .add (.name N.pos) (.bin .mul (.name N.vel) (.name N.dt))),\n",
    "new": "",
    "descr": "dropped: .assign (.name N.new_position) (.bin .add (.name N.pos) (.bin .mul (.name N.vel) (.name N.dt))),"
   }
  ],
  "claim": "the numerical module does what its text says (C78)",
  "expect": [
   "C78"
  ],
  "definition": "deadReckoning.drm_fpw"
 },
 {
  "id": "D23",
  "edits": [
   {
    "file": "Verif/Source/Calc.lean",
    "within": "deadReckoning.drm_rpw",
    "old": "    .assign (.name N.new_position) (.bin .add (.name N.pos) (.bin .mul (.name N.vel) (.name N.dt))),\n",
    "new": "",
    "descr": "dropped: .assign (.name N.new_position) (.bin .add (.name N.pos) (.bin .mul (.name N.vel) (.name N.dt))),"
   }
  ],
  "claim": "the numerical module does what its text says (C78)",
  "expect": [
   "C78"
  ],
  "definition": "deadReckoning.drm_rpw"
 },
 {
  "id": "D24",
  "edits": [
   {
    "file": "Verif/Source/Calc.lean",
    "within": "deadReckoning.drm_rvw",
    "old": "    .assign (.name N.new_position) (.bin .add (.bin .add (.name N.pos) (.bin .mul (.name N.vel) (.name N.dt))) (.bin .mul (.bin .mul (.dec 5 (-1)) (.name N.acc)) (.bin .pow (.name N.dt) (.int 2)))),",
    "new": "    .assign (.name N.new_position) (.bin .add (.bin .add (.name N.pos) (.bin .mul (.name N.vel) (.name N.dt))) (.bin .div (.bin .mul (.dec 5 (-1)) (.name N.acc)) (.bin .pow (.name N.dt) (.int 2)))),",
    "descr": ".bin .mul -> .bin .div in: .assign (.name N.new_position) (.bin .add (.bin .add (.name N.pos) (.bin .mul (.name N.vel) (.name N.dt))) (.bin .mul (."
   }
  ],
  "claim": "the numerical module does what its text says (C78)",
  "expect": [
   "C78"
  ],
  "definition": "deadReckoning.drm_rvw"
 },
 {
  "id": "D25",
  "edits": [
   {
    "file": "Verif/Source/Calc.lean",
    "within": "deadReckoning.drm_fvw",
    "old": "    .assign (.name N.new_position) (.bin .add (.bin .add (.name N.pos) (.bin .mul (.name N.vel) (.name N.dt))) (.bin .mul (.bin .mul (.dec 5 (-1)) (.name N.acc)) (.bin .pow (.name N.dt) (.int 2)))),\n",
    "new": "",
    "descr": "dropped: .assign (.name N.new_position) (.bin .add (.bin .add (.name N.pos) (.bin .mul (.name N.vel) (.name N.dt))) (.bin .mul (.bin .mul (.dec 5 (-1)) (.name N.acc)) (.bin .pow (.name N.dt) (.int 2)))),"
   }
  ],
  "claim": "the numerical module does what its text says (C78)",
  "expect": [
   "C78"
  ],
  "definition": "deadReckoning.drm_fvw"
 },
 {
  "id": "D26",
  "edits": [
   {
    "file": "Verif/Source/Calc.lean",
    "within": "deadReckoning.drm_fpb",
    "old": "    .assign (.name N.new_position) (.bin .add (.name N.pos) (.bin .mul (.name N.velocity_world) (.name N.dt))),",
    "new": "    .assign (.name N.new_position) (.bin .sub (.name N.pos) (.bin .mul (.name N.velocity_world) (.name N.dt))),",
    "descr": ".bin .add -> .bin .sub in: .assign (.name N.new_position) (.bin .add (.name N.pos) (.bin .mul (.name N.velocity_world) (.name N.dt))),"
   }
  ],
  "claim": "the numerical module does what its text says (C78)",
  "expect": [
   "C78"
  ],
  "definition": "deadReckoning.drm_fpb"
 },
 {
  "id": "D27",
  "edits": [
   {
    "file": "Verif/Source/Calc.lean",
    "within": "deadReckoning.drm_rpb",
    "old": "    .assign (.name N.new_position) (.bin .add (.name N.pos) (.bin .mul (.name N.velocity_world) (.name N.dt))),",
    "new": "    .assign (.name N.new_position) (.bin .add (.name N.pos) (.bin .div (.name N.velocity_world) (.name N.dt))),",
    "descr": ".bin .mul -> .bin .div in: .assign (.name N.new_position) (.bin .add (.name N.pos) (.bin .mul (.name N.velocity_world) (.name N.dt))),"
   }
  ],
  "claim": "the numerical module does what its text says (C78)",
  "expect": [
   "C78"
  ],
  "definition": "deadReckoning.drm_rpb"
 },
 {
  "id": "D28",
  "edits": [
   {
    "file": "Verif/Source/Calc.lean",
    "within": "deadReckoning.drm_rvb",
    "old": "    .assign (.name N.displacement_body) (.bin .add (.bin .mul (.name N.vel) (.name N.dt)) (.bin .mul (.bin .mul (.dec 5 (-1)) (.name N.acc)) (.bin .pow (.name N.dt) (.int 2)))),",
    "new": "    .assign (.name N.displacement_body) (.bin .add (.bin .mul (.name N.vel) (.name N.dt)) (.bin .mul (.bin .mul (.dec 5 (-1)) (.name N.acc)) (.bin .pow (.name N.dt) (.int 3)))),",
    "descr": "(.int 2) -> (.int 3) in: .assign (.name N.displacement_body) (.bin .add (.bin .mul (.name N.vel) (.name N.dt)) (.bin .mul (.bin .mul (.dec 5 (-1)"
   }
  ],
  "claim": "the numerical module does what its text says (C78)",
  "expect": [
   "C78"
  ],
  "definition": "deadReckoning.drm_rvb"
 },
 {
  "id": "D29",
  "edits": [
   {
    "file": "Verif/Source/Calc.lean",
    "within": "deadReckoning.drm_fvb",
    "old": "    .assign (.name N.new_position) (.bin .add (.name N.pos) (.name N.displacement_world)),",
    "new": "    .assign (.name N.new_position) (.bin .sub (.name N.pos) (.name N.displacement_world)),",
    "descr": ".bin .add -> .bin .sub in: .assign (.name N.new_position) (.bin .add (.name N.pos) (.name N.displacement_world)),"
   }
  ],
  "claim": "the numerical module does what its text says (C78)",
  "expect": [
   "C78"
  ],
  "definition": "deadReckoning.drm_fvb"
 }
]