[{"id": "D01", "definition": "rangeCoordinates.GPS.lla2utm", "claim": "the numerical module does what its text says (C78)", "expect": ["C78"], "edits": [{"file": "Verif/Source/Calc.lean", "within": "rangeCoordinates.GPS.lla2utm", "old": "    .assign (.name N.k0) (.dec 9996 (-4)),\n    .assign (.name N.eSquared) (.bin .pow (.attr (.attr (.name N.self) N.wgs84) N.e) (.int 2)),\n", "new": "    .assign (.name N.eSquared) (.bin .pow (.attr (.attr (.name N.self) N.wgs84) N.e) (.int 2)),\n    .assign (.name N.k0) (.dec 9996 (-4)),\n", "descr": "swapped: .assign (.name N.k0) (.dec 9996 (-4)), / .assign (.name N.eSquared) (.bin .pow (.attr (.attr (.name N.self) N.wgs84) N.e) (.int 2)),"}]}, {"id": "D02", "definition": "deadReckoning.get_rotation_matrix", "claim": "the numerical module does what its text says (C78)", "expect": ["C78"], "edits": [{"file": "Verif/Source/Calc.lean", "within": "deadReckoning.get_rotation_matrix", "old": "    .assign (.name N.r12) (.bin .sub (.bin .mul (.bin .mul (.name N.c_psi) (.name N.s_theta)) (.name N.s_phi)) (.bin .mul (.name N.s_psi) (.name N.c_phi))),", "new": "    .assign (.name N.r12) (.bin .sub (.bin .div (.bin .mul (.name N.c_psi) (.name N.s_theta)) (.name N.s_phi)) (.bin .mul (.name N.s_psi) (.name N.c_phi))),", "descr": ".bin .mul -> .bin .div in: .assign (.name N.r12) (.bin .sub (.bin .mul (.bin .mul (.name N.c_psi) (.name N.s_theta)) (.name N.s_phi)) (.bin .mul (."}]}, {"id": "D03", "definition": "deadReckoning.get_angular_velocity_matrix", "claim": "the numerical module does what its text says (C78)", "expect": ["C78"], "edits": [{"file": "Verif/Source/Calc.lean", "within": "deadReckoning.get_angular_velocity_matrix", "old": "    .ret (.method (.name N.np) N.array [.list [.list [.int 0, .neg (.name N.wz), .name N.wy], .list [.name N.wz, .int 0, .neg (.name N.wx)], .list [.neg (.name N.wy), .name N.wx, .int 0]]] [])]", "new": "    .ret (.method (.name N.np) N.array [.list [.list [.int 0, (.name N.wz), .name N.wy], .list [.name N.wz, .int 0, .neg (.name N.wx)], .list [.neg (.name N.wy), .name N.wx, .int 0]]] [])]", "descr": ".neg ->  in: .ret (.method (.name N.np) N.array [.list [.list [.int 0, .neg (.name N.wz), .name N.wy], .list [.name N.wz, .int 0, .ne"}]}, {"id": "D04", "definition": "deadReckoning.drm_fpw", "claim": "the numerical module does what its text says (C78)", "expect": ["C78"], "edits": [{"file": "Verif/Source/Calc.lean", "within": "deadReckoning.drm_fpw", "old": "    .assign (.name N.new_position) (.bin .add (.name N.pos) (.bin .mul (.name N.vel) (.name N.dt))),", "new": "    .assign (.name N.new_position) (.bin .add (.name N.pos) (.bin .div (.name N.vel) (.name N.dt))),", "descr": ".bin .mul -> .bin .div in: .assign (.name N.new_position) (.bin .add (.name N.pos) (.bin .mul (.name N.vel) (.name N.dt))),"}]}, {"id": "D05", "definition": "deadReckoning.drm_rpw", "claim": "the numerical module does what its text says (C78)", "expect": ["C78"], "edits": [{"file": "Verif/Source/Calc.lean", "within": "deadReckoning.drm_rpw", "old": "    .assign (.name N.ori) (.call N._to_numpy [.name N.orientation] []),\n", "new": "", "descr": "dropped: .assign (.name N.ori) (.call N._to_numpy [.name N.orientation] []),"}]}, {"id": "D06", "definition": "deadReckoning.drm_rvw", "claim": "the numerical module does what its text says (C78)", "expect": ["C78"], "edits": [{"file": "Verif/Source/Calc.lean", "within": "deadReckoning.drm_rvw", "old": "    .assign (.name N.new_position) (.bin .add (.bin .add (.name N.pos) (.bin .mul (.name N.vel) (.name N.dt))) (.bin .mul (.bin .mul (.dec 5 (-1)) (.name N.acc)) (.bin .pow (.name N.dt) (.int 2)))),", "new": "    .assign (.name N.new_position) (.bin .add (.bin .add (.name N.pos) (.bin .mul (.name N.vel) (.name N.dt))) (.bin .div (.bin .mul (.dec 5 (-1)) (.name N.acc)) (.bin .pow (.name N.dt) (.int 2)))),", "descr": ".bin .mul -> .bin .div in: .assign (.name N.new_position) (.bin .add (.bin .add (.name N.pos) (.bin .mul (.name N.vel) (.name N.dt))) (.bin .mul (."}]}, {"id": "D07", "definition": "deadReckoning.drm_fvw", "claim": "the numerical module does what its text says (C78)", "expect": ["C78"], "edits": [{"file": "Verif/Source/Calc.lean", "within": "deadReckoning.drm_fvw", "old": "    .assign (.name N.new_position) (.bin .add (.bin .add (.name N.pos) (.bin .mul (.name N.vel) (.name N.dt))) (.bin .mul (.bin .mul (.dec 5 (-1)) (.name N.acc)) (.bin .pow (.name N.dt) (.int 2)))),", "new": "    .assign (.name N.new_position) (.bin .add (.bin .add (.name N.pos) (.bin .div (.name N.vel) (.name N.dt))) (.bin .mul (.bin .mul (.dec 5 (-1)) (.name N.acc)) (.bin .pow (.name N.dt) (.int 2)))),", "descr": ".bin .mul -> .bin .div in: .assign (.name N.new_position) (.bin .add (.bin .add (.name N.pos) (.bin .mul (.name N.vel) (.name N.dt))) (.bin .mul (."}]}, {"id": "D08", "definition": "deadReckoning.drm_fpb", "claim": "the numerical module does what its text says (C78)", "expect": ["C78"], "edits": [{"file": "Verif/Source/Calc.lean", "within": "deadReckoning.drm_fpb", "old": "    .assign (.name N.new_position) (.bin .add (.name N.pos) (.bin .mul (.name N.velocity_world) (.name N.dt))),", "new": "    .assign (.name N.new_position) (.bin .add (.name N.pos) (.bin .div (.name N.velocity_world) (.name N.dt))),", "descr": ".bin .mul -> .bin .div in: .assign (.name N.new_position) (.bin .add (.name N.pos) (.bin .mul (.name N.velocity_world) (.name N.dt))),"}]}, {"id": "D09", "definition": "deadReckoning.drm_rpb", "claim": "the numerical module does what its text says (C78)", "expect": ["C78"], "edits": [{"file": "Verif/Source/Calc.lean", "within": "deadReckoning.drm_rpb", "old": "    .assign (.name N.ori) (.call N._to_numpy [.name N.orientation] []),\n", "new": "", "descr": "dropped: .assign (.name N.ori) (.call N._to_numpy [.name N.orientation] []),"}]}, {"id": "D10", "definition": "deadReckoning.drm_rvb", "claim": "the numerical module does what its text says (C78)", "expect": ["C78"], "edits": [{"file": "Verif/Source/Calc.lean", "within": "deadReckoning.drm_rvb", "old": "    .assign (.name N.R_wb) (.call N.get_rotation_matrix [.star (.name N.ori)] []),\n    .assign (.name N.displacement_body) (.bin .add (.bin .mul (.name N.vel) (.name N.dt)) (.bin .mul (.bin .mul (.dec 5 (-1)) (.name N.acc)) (.bin .pow (.name N.dt) (.int 2)))),\n", "new": "    .assign (.name N.displacement_body) (.bin .add (.bin .mul (.name N.vel) (.name N.dt)) (.bin .mul (.bin .mul (.dec 5 (-1)) (.name N.acc)) (.bin .pow (.name N.dt) (.int 2)))),\n    .assign (.name N.R_wb) (.call N.get_rotation_matrix [.star (.name N.ori)] []),\n", "descr": "swapped: .assign (.name N.R_wb) (.call N.get_rotation_matrix [.star (.name N.ori)] []), / .assign (.name N.displacement_body) (.bin .add (.bin .mul (.name N.vel) (.name N.dt)) (.bin .mul (.bin .mul (.dec 5 (-1)) (.name N.acc)) (.bin .pow (.name N.dt) (.int 2)))),"}]}, {"id": "D11", "definition": "deadReckoning.drm_fvb", "claim": "the numerical module does what its text says (C78)", "expect": ["C78"], "edits": [{"file": "Verif/Source/Calc.lean", "within": "deadReckoning.drm_fvb", "old": "    .assign (.name N.displacement_body) (.bin .add (.bin .mul (.name N.vel) (.name N.dt)) (.bin .mul (.bin .mul (.dec 5 (-1)) (.name N.acc)) (.bin .pow (.name N.dt) (.int 2)))),", "new": "    .assign (.name N.displacement_body) (.bin .add (.bin .div (.name N.vel) (.name N.dt)) (.bin .mul (.bin .mul (.dec 5 (-1)) (.name N.acc)) (.bin .pow (.name N.dt) (.int 2)))),", "descr": ".bin .mul -> .bin .div in: .assign (.name N.displacement_body) (.bin .add (.bin .mul (.name N.vel) (.name N.dt)) (.bin .mul (.bin .mul (.dec 5 (-1)"}]}]