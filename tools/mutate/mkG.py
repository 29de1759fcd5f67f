import json
D='Verif/Geo/DeadReckoning.lean'; G='Verif/Geo/RangeCoordinates.lean'
M=[]
def m(id,file,old,new,defn,claim,expect,**k): M.append(dict(id=id,file=file,old=old,new=new,definition=defn,claim=claim,expect=expect,**k))
m('G01',D,'let r23 := s_psi * s_theta * c_phi - c_psi * s_phi','let r23 := s_psi * s_theta * c_phi + c_psi * s_phi','get_rotation_matrix','sign of r23 flipped: not a rotation any more',['C32','C35'])
m('G02',D,'''  !![r11, r12, r13;
     r21, r22, r23;
     r31, r32, r33]''','''  !![r11, r21, r31;
     r12, r22, r32;
     r13, r23, r33]''','get_rotation_matrix','transposed matrix: still a rotation, but world-to-body instead of Rz Ry Rx',['C32_elementary'])
m('G03',D,'let r31 := -s_theta','let r31 := s_theta','get_rotation_matrix','sign of r31 flipped',['C32'])
m('G04',D,'''     -wy, wx, 0]''','''     -wy, -wx, 0]''','get_angular_velocity_matrix','not skew-symmetric, not the cross product',['C32_skew','C32_cross'])
m('G05',D,'  (position + dt • velocity, orientation)','  (position + velocity, orientation)','drm_fpw','dt dropped: dt = 0 no longer the identity, does not compose',['C33','C34_fpw'])
m('G06',D,'    if |c_theta| < 1e-6 then','    if |c_theta| < 1e-2 then','drm_rpw','gimbal-lock branch taken too early: rates wrong near but not at the singularity',['C36'])
m('G07',D,'(p + (q * s_phi + r * c_phi) * t_theta, q * c_phi - r * s_phi,','(p + (q * s_phi - r * c_phi) * t_theta, q * c_phi - r * s_phi,','drm_rpw','roll rate wrong',['C36'])
m('G08',D,'        (q * s_phi + r * c_phi) / c_theta)','        (q * s_phi + r * c_phi) * c_theta)','drm_rpw','yaw rate multiplied instead of divided by cos theta',['C36'])
m('G09',D,'(p, q * c_phi - r * s_phi, 0)','(p, q * c_phi + r * s_phi, 0)','drm_rpw','pitch rate in the gimbal-lock branch wrong',['C36'])
m('G10',D,'''  let new_position := position + dt • velocity + dt ^ 2 • ((0.5 : ℝ) • acceleration)
  let new_orientation := (drm_rpw position velocity dt orientation angular_velocity).2''','''  let new_position := position + dt • velocity + dt ^ 2 • acceleration
  let new_orientation := (drm_rpw position velocity dt orientation angular_velocity).2''','drm_rvw','factor 1/2 missing: position does not compose over time',['C34'])
m('G11',D,'''  (position + dt • velocity + dt ^ 2 • ((0.5 : ℝ) • acceleration), orientation)''','''  (position + dt • velocity + dt • ((0.5 : ℝ) • acceleration), orientation)''','drm_fvw','dt instead of dt^2',['C34_fvw'])
m('G12',D,'''  let R_wb := get_rotation_matrix (orientation 0) (orientation 1) (orientation 2)
  let velocity_world := R_wb *ᵥ velocity
  (position + dt • velocity_world, orientation)''','''  let R_wb := get_rotation_matrix (orientation 2) (orientation 1) (orientation 0)
  let velocity_world := R_wb *ᵥ velocity
  (position + dt • velocity_world, orientation)''','drm_fpb','psi and phi swapped when building the body-to-world matrix',['C35'])
m('G13',D,'''  let velocity_world := R_wb *ᵥ velocity
  (position + dt • velocity_world, orientation)''','''  let velocity_world := R_wbᵀ *ᵥ velocity
  (position + dt • velocity_world, orientation)''','drm_fpb','transposed rotation: displacement turned the wrong way',['C35'])
m('G14',D,'''  (position + displacement_world, new_orientation)''','''  (position + displacement_body, new_orientation)''','drm_rvb','body displacement added without rotating it',['C35','C34'])
m('G15',D,'''  (position + dt • velocity_world, new_orientation)''','''  (position + dt • velocity_world, orientation)''','drm_rpb','orientation not advanced',['C36_all_rotating'])
m('G16',D,'''  let displacement_body := dt • velocity + dt ^ 2 • ((0.5 : ℝ) • acceleration)
  let displacement_world := R_wb *ᵥ displacement_body
  (position + displacement_world, orientation)''','''  let displacement_body := dt • velocity + dt ^ 2 • ((0.5 : ℝ) • acceleration)
  let displacement_world := R_wb *ᵥ displacement_body
  (position + displacement_world, ![orientation 0, orientation 1, orientation 2 + dt])''','drm_fvb','fixed-orientation model rolls',['C33','C34_fvb'])
m('G17',D,'(new_position, ![psi + d_psi * dt, theta + d_theta * dt, phi + d_phi * dt])','(new_position, ![psi + d_phi * dt, theta + d_theta * dt, phi + d_psi * dt])','drm_rpw','yaw and roll rates applied to the wrong angles',['C36'])
m('G20',G,'noncomputable def deg2rad (deg : ℝ) : ℝ := deg * Real.pi / 180','noncomputable def deg2rad (deg : ℝ) : ℝ := deg * Real.pi / 200','deg2rad','gradians instead of degrees',['C43','C39','C38'])
m('G21',G,'euclideanDistanceLoop (total + (d - r) ^ 2) data (some dataRef)','euclideanDistanceLoop (total + (d + r) ^ 2) data (some dataRef)','euclideanDistanceLoop','sum instead of difference: not a metric',['C43'])
m('G22',G,'  let z := (N * (1 - e ^ 2) + alt) * Real.sin lat\n  ![x, y, z]','  let z := (N + alt) * Real.sin lat\n  ![x, y, z]','lla2ecef','sphere-like z: not on the ellipsoid',['C38','C39'])
m('G23',G,'  let y := (N + alt) * Real.cos lat * Real.sin lon\n','  let y := -((N + alt) * Real.cos lat * Real.sin lon)\n','lla2ecef','west longitudes positive',['C38','C39'])
m('G24',G,'  let x := (N + alt) * Real.cos lat * Real.cos lon\n','  let x := N * Real.cos lat * Real.cos lon\n','lla2ecef','altitude ignored in x',['C38'])
m('G25',G,'    let lat := Real.arctan ((z + e ^ 2 * s.N * sinLat) / p)','    let lat := Real.arctan ((z - e ^ 2 * s.N * sinLat) / p)','ecef2lla_body','sign error: true coordinates no longer a fixed point',['C39'])
m('G26',G,'      let alt := p / Real.cos lat - N\n','      let alt := p / Real.cos lat - a\n','ecef2lla_body','altitude measured from the wrong radius',['C39'])
m('G27',G,'    if z > 0 then some (.ok ![90, 69, round2 (z - b)])','    if z > 0 then some (.ok ![90, 69, round2 (z - a)])','ecef2lla','altitude at the north pole measured from the equatorial radius',['C39_poles'])
m('G28',G,'    else if z < 0 then some (.ok ![-90, 69, round2 (-z - b)])','    else if z < 0 then some (.ok ![90, 69, round2 (-z - b)])','ecef2lla','south pole reported as north pole',['C39_poles'])
m('G29',G,'some (.ok ![rad2deg s.lat, rad2deg lon, s.alt])','some (.ok ![rad2deg lon, rad2deg s.lat, s.alt])','ecef2lla','latitude and longitude swapped in the result',['C39'])
m('G30',G,'  let lon := atan2 y x\n','  let lon := atan2 x y\n','ecef2lla','arguments of atan2 swapped',['C39_longitude'])
m('G31',G,'  | .ok s => ¬ |s.lat - s.previousLat| ≥ tolerance','  | .ok s => ¬ (s.lat - s.previousLat) ≥ tolerance','ecef2lla_leaves','absolute value forgotten: stops at the first decrease',['C39_accuracy'])
m('G32',G,'(1 - Real.cos theta) • nnt + Real.cos theta • (1 : Mat) + Real.sin theta • n_x','(1 - Real.cos theta) • nnt + Real.cos theta • (1 : Mat) - Real.sin theta • n_x','rotate_3x3','left-handed rotation',['C40'])
m('G33',G,'(1 - Real.cos theta) • nnt + Real.cos theta • (1 : Mat) + Real.sin theta • n_x','(1 + Real.cos theta) • nnt + Real.cos theta • (1 : Mat) + Real.sin theta • n_x','rotate_3x3','axis not fixed',['C40'])
m('G34',G,'''     -Real.sin lon, Real.cos lon, 0;
     -Real.cos lat * Real.cos lon, -Real.cos lat * Real.sin lon, -Real.sin lat]

/-- `GPS.ecef2llarpy`''','''     Real.sin lon, -Real.cos lon, 0;
     -Real.cos lat * Real.cos lon, -Real.cos lat * Real.sin lon, -Real.sin lat]

/-- `GPS.ecef2llarpy`''','ecefvec2nedvec','second row points west: left-handed frame',['C37_frame','C41'])
m('G35',G,'    some (.ok (Re2t *ᵥ (ecef - origin)))','    some (.ok (Re2t *ᵥ (origin - ecef)))','ecef2ned','offset reversed',['C37_inverse','C37_meaning'])
m('G36',G,'    some (.ok (Rt2e *ᵥ ned + origin))','    some (.ok (Rt2e *ᵥ ned))','ned2ecef','origin not added back',['C37_inverse'])
m('G37',G,'    let alpha := atan2 (ned 1) (ned 0)','    let alpha := atan2 (ned 0) (ned 1)','ned2pae','azimuth measured from east',['C44'])
m('G38',G,'    let epsilon := atan2 (-ned 2) (Real.sqrt (ned 0 ^ 2 + ned 1 ^ 2))','    let epsilon := atan2 (ned 2) (Real.sqrt (ned 0 ^ 2 + ned 1 ^ 2))','ned2pae','elevation negated',['C44'])
m('G39',G,'  | some (.ok ned) => some (ned2pae ned)','  | some (.ok ned) => some (ned2pae (-ned))','ecef2pae','direction reversed',['C44_ecef'])
m('G40',G,"  else if 0 ≤ lat ∧ lat < 8 then 'N'","  else if 0 < lat ∧ lat < 8 then 'N'",'utmLetterDesignator','the equator itself gets no band',['C42_letter'])
m('G41',G,"  else if 64 ≤ lat ∧ lat < 72 then 'W'\n","  else if 64 ≤ lat ∧ lat < 72 then 'X'\n",'utmLetterDesignator','two bands called X',['C42_letter'])
m('G42',G,'  let zone₁ : ℤ := truncate ((lon + 180) / 6) + 1','  let zone₁ : ℤ := truncate ((lon + 180) / 6)','zoneNumber','zones numbered from 0',['C42_number','C42_within'])
m('G43',G,'(56 ≤ lat ∧ lat < 64) ∧ (3 ≤ lon ∧ lon < 12) then 32','(56 ≤ lat ∧ lat < 64) ∧ (3 ≤ lon ∧ lon < 12) then 31','zoneNumber','Norway exception with the wrong zone',['C42_norway'])
m('G44',G,'    else if 9 ≤ lon ∧ lon < 21 then 33','    else if 9 ≤ lon ∧ lon < 21 then 32','zoneNumber','Svalbard exception with the wrong zone',['C42_svalbard'])
m('G45',G,'(((zoneNumber - 1) * 6 - 180 + 3 : ℤ) : ℝ)','(((zoneNumber - 1) * 6 - 180 : ℤ) : ℝ)','lla2utm','central meridian at the edge of the zone',['C46'])
m('G46',G,'  let k0 : ℝ := 0.9996','  let k0 : ℝ := 1','lla2utm','scale factor missing',['C46'])
m('G47',G,'* A ^ 5 / 120) + 500000','* A ^ 4 / 120) + 500000','lla2utm','even power in the easting series: not mirrored at the central meridian',['C46_mirror'])
m('G48',G,'  let y := k0 * (M - M0 +','  let y := 10000000 + k0 * (M - M0 +','lla2utm','false northing added everywhere',['C46'])
m('G49',G,'(5 - 18 * T + T ^ 2 + 72 * C - 58 * ePrimeSquared) * A ^ 5 / 120','(5 - 18 * T + T ^ 2 + 14 * C - 58 * ePrimeSquared) * A ^ 5 / 120','lla2utm','wrong coefficient in the easting series (the standard one is 72 C): eastings off the central meridian wrong',['C46'])
m('G50',G,'    - (3 * eSquared / 8 + 3 * eSquared ^ 2 / 32 + 45 * eSquared ^ 3 / 1024) * Real.sin (2 * latRad)','    - (3 * eSquared / 8 + 3 * eSquared ^ 2 / 32 - 45 * eSquared ^ 3 / 1024) * Real.sin (2 * latRad)','lla2utm','wrong coefficient in the meridian arc',['C46'])
m('G51',G,'{ utm := ![x, y, alt], zone := zone, k := k }','{ utm := ![y, x, alt], zone := zone, k := k }','lla2utm','easting and northing swapped',['C46'])
m('G52',G,'''  let rot_array_1 := rotate_3x3 yaw z0
  let x1 := rot_array_1 *ᵥ x0''','''  let rot_array_1 := rotate_3x3 (-yaw) z0
  let x1 := rot_array_1 *ᵥ x0''','llarpy2ecef','yaw turned the wrong way',['C41'])
m('G53',G,'  let Y2 := rotate_3x3 psi Z0 *ᵥ Y0\n  let Z2 := rotate_3x3 theta Y2 *ᵥ Z0','  let Y2 := rotate_3x3 psi Z0 *ᵥ Y0\n  let Z2 := rotate_3x3 theta Y0 *ᵥ Z0','llarpy2ecef','intermediate axis taken from the unrotated frame',['C41'])
m('G54',G,'    let roll := atan2 (y3 ⬝ᵥ Z2) (y3 ⬝ᵥ Y2)','    let roll := atan2 (y3 ⬝ᵥ Y2) (y3 ⬝ᵥ Z2)','ecef2llarpy','roll measured from the other axis',['C41'])
m('G55',G,'    some (.ok (![deg2rad lat, deg2rad lon, alt], ![roll, pitch, yaw]))','    some (.ok (![lat, lon, alt], ![roll, pitch, yaw]))','ecef2llarpy','latitude and longitude left in degrees',['C41_ecef2llarpy'])
m('G56',G,'.ok (lla2ecef lla - lla2ecef ![lat0, lon0, a0])','.ok (lla2ecef lla - lla2ecef ![lon0, lat0, a0])','lla2gcc','origin latitude and longitude swapped (no property covers lla2gcc yet)',['C47'])
json.dump(M,open('/tmp/mut/G.json','w'))
s={f:open('/verif/lean/'+f).read() for f in (D,G)}
for x in M:
    n=s[x['file']].count(x['old'])
    if n!=1: print(x['id'],n)
src=s[D]
import re
def all_edit(id,pairs,defn,claim,expect):
    eds=[]
    for o,n,c in pairs: eds.append(dict(file=D,old=o,new=n,count=c))
    M.append(dict(id=id,edits=eds,definition=defn,claim=claim,expect=expect))
all_edit('G60',[('R_wb *ᵥ velocity','R_wbᵀ *ᵥ velocity',2),('R_wb *ᵥ displacement_body','R_wbᵀ *ᵥ displacement_body',2)],'drm_fpb, drm_rpb, drm_rvb, drm_fvb','body velocities rotated by the inverse attitude in all four body-frame models',['C34','C35'])
all_edit('G61',[('dt • velocity','(-dt) • velocity',5)],'all moving dead-reckoning models','entities move backwards',['C34','C35'])
M=[x for x in M]
json.dump(M,open('/tmp/mut/G.json','w'))
