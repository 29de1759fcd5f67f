import Verif.Model.Examples
import Verif.Spec.Examples
import Verif.Geo.Examples
import Verif.Props.Received
import Verif.Props.Data
import Verif.Props.Coordinates
import Verif.Props.Geodetic

/-!
# C61: the example sender and receiver
-/

namespace Dis

open Geo

/-! ## Which messages are shown, and how -/

/-- **C61.** An entity state message of at most 1024 bytes is shown with its entity number, the exact
location and the angles rounded to single precision, whatever follows the message up to that size. -/
theorem C61_entity (p : EntityStatePdu) (ht : p.pduType = 1) (b post : Bytes)
    (hb : p.serialize.Emits b) (hl : b.length ≤ 1024) :
    ∃ psi theta phi, recv (b ++ post) = .ok (.entity p.entityID.entityNumber
        p.entityLocation.x p.entityLocation.y p.entityLocation.z psi theta phi)
      ∧ SentAs p.entityOrientation.psi psi ∧ SentAs p.entityOrientation.theta theta
      ∧ SentAs p.entityOrientation.phi phi := by
  have hr := (C21_factory_round_trip (.EntityStatePdu p) trivial (by
    show PduTypeDecoders.lookup p.pduType = _; rw [ht]; exact (by decide : PduTypeDecoders.lookup 1 = some PduClass.EntityStatePdu)) b hb (post.take (1024 - b.length))).1
  have w := (EntityStatePdu.ok_iff p).1 hb.ok
  obtain ⟨-, -, -, -, -, -, -, ⟨w1, w2, w3⟩, -⟩ := w
  refine ⟨quant p.entityOrientation.psi, quant p.entityOrientation.theta, quant p.entityOrientation.phi,
    ?_, ?_, ?_, ?_⟩
  · unfold recv
    rw [List.take_append, List.take_of_length_le hl]
    simp only
    rw [hr]
    have h1 : (AnyPdu.received (.EntityStatePdu p)).toPdu.pduType = 1 := ht
    simp only [h1]
    rfl
  · exact ⟨_, (ok_float.2 w1).emits, rt_float _ _ (ok_float.2 w1).emits⟩
  · exact ⟨_, (ok_float.2 w2).emits, rt_float _ _ (ok_float.2 w2).emits⟩
  · exact ⟨_, (ok_float.2 w3).emits, rt_float _ _ (ok_float.2 w3).emits⟩

/-- **C61.** An entity state message with 56 variable parameters or more does not fit the buffer: the
receiver raises. (Up to 55 it fits.) -/
theorem C61_entity_too_long (p : EntityStatePdu) (ht : p.pduType = 1) (b : Bytes)
    (hb : p.serialize.Emits b) :
    b.length = 144 + 16 * p.variableParameters.length ∧
    (56 ≤ p.variableParameters.length → ∃ e, recv b = .error e) := by
  have hl : b.length = 144 + 16 * p.variableParameters.length := EntityStatePdu.sized p b hb
  refine ⟨hl, fun hn => ?_⟩
  obtain ⟨e, he⟩ := C21_truncated (.EntityStatePdu p) trivial (by show PduClass.EntityStatePdu ≠ _; decide)
    (by show PduTypeDecoders.lookup p.pduType = _; rw [ht]; exact (by decide : PduTypeDecoders.lookup 1 = some PduClass.EntityStatePdu)) b hb (b.take 1024) (b.drop 1024)
    (List.take_append_drop ..).symm (by
      intro h
      have := congrArg List.length h
      simp only [List.length_drop, List.length_nil] at this
      omega)
  exact ⟨e, by simp only [recv, he]⟩

/-- **C61.** Datagrams shown as entities have type number 1 and were decoded as `EntityStatePdu`; all
others that are shown have another type, are shown with the class registered for it, and with their
size, but at most 1024. -/
theorem C61_shown_as (d : Bytes) (r : Received) (h : recv d = .ok r) :
    (∃ p : EntityStatePdu, createPdu (d.take 1024) = .ok (some (.EntityStatePdu p)) ∧ fieldAt d 2 1 = 1
      ∧ r = .entity p.entityID.entityNumber p.entityLocation.x p.entityLocation.y p.entityLocation.z
        p.entityOrientation.psi p.entityOrientation.theta p.entityOrientation.phi)
    ∨ fieldAt d 2 1 ≠ 1 ∧ ∃ c, PduTypeDecoders.lookup (fieldAt d 2 1) = some c
      ∧ r = .other c (min 1024 d.length) := by
  unfold recv at h
  simp only at h
  cases hc : createPdu (d.take 1024) with
  | error e => rw [hc] at h; cases h
  | ok o =>
    cases o with
    | none => rw [hc] at h; cases h
    | some p =>
      rw [hc] at h
      simp only at h
      obtain ⟨hl, -, -, h2, -⟩ := C60_header _ p hc
      have hf : fieldAt d 2 1 = p.toPdu.pduType := by
        rw [← h2]
        unfold fieldAt
        congr 1
        rw [List.drop_take, List.take_take]
        rfl
      have ht := C60_type _ p hc
      by_cases hp : p.toPdu.pduType = 1
      · rw [if_pos hp] at h
        left
        have : p.cls = .EntityStatePdu := by
          rw [hp] at ht
          exact (Option.some.inj (ht.symm.trans (by decide)))
        cases p <;> first | (cases this; done) | skip
        cases h
        exact ⟨_, rfl, by rw [hf]; exact hp, rfl⟩
      · rw [if_neg hp] at h
        right
        cases h
        exact ⟨by rw [hf]; exact hp, p.cls, by rw [hf]; exact ht, by simp⟩

/-- **C61.** `recv` raises exactly if the factory raises on the first 1024 bytes or knows no class for the
type number; the latter is an `AttributeError`. -/
theorem C61_raises (d : Bytes) (e : PyErr) :
    recv d = .error e ↔ createPdu (d.take 1024) = .error e
      ∨ createPdu (d.take 1024) = .ok none ∧ e = .attributeError := by
  constructor
  · intro h
    cases hc : createPdu (d.take 1024) with
    | error e' => simp only [recv, hc] at h; cases h; exact .inl rfl
    | ok o =>
      cases o with
      | none => simp only [recv, hc] at h; cases h; exact .inr ⟨rfl, rfl⟩
      | some p =>
        exfalso
        simp only [recv, hc] at h
        have ht := C60_type _ p hc
        by_cases hp : p.toPdu.pduType = 1
        · rw [if_pos hp] at h
          have : p.cls = .EntityStatePdu := by
            rw [hp] at ht
            exact (Option.some.inj (ht.symm.trans (by decide)))
          cases p <;> first | (cases this; done) | skip
          cases h
        · rw [if_neg hp] at h; cases h
  · rintro (h | ⟨h, rfl⟩) <;> simp only [recv, h]

/-! ## The loop -/

/-- **C61.** The receiver shows every datagram up to the first on which `recv` raises, which ends it. -/
theorem C61_loop (good : List Bytes) (shown : List Received)
    (hg : good.map recv = shown.map .ok) (bad : Bytes) (e : PyErr) (hb : recv bad = .error e)
    (rest : List Bytes) :
    receiver good = (shown, none) ∧ receiver (good ++ bad :: rest) = (shown, some e) := by
  induction good generalizing shown with
  | nil =>
    cases shown with
    | nil => exact ⟨rfl, by simp only [List.nil_append, receiver, hb]⟩
    | cons _ _ => cases hg
  | cons g good ih =>
    cases shown with
    | nil => cases hg
    | cons s shown =>
      simp only [List.map_cons, List.cons.injEq] at hg
      obtain ⟨h1, h2⟩ := ih shown hg.2
      constructor
      · simp only [receiver, hg.1, h1]
      · simp only [List.cons_append, receiver, hg.1, h2]

/-- **C61.** So three bytes from anyone end the receiver, after whatever it has shown. -/
theorem C61_killed (good : List Bytes) (shown : List Received) (hg : good.map recv = shown.map .ok)
    (rest : List Bytes) :
    receiver (good ++ [0, 0, 0] :: rest) = (shown, some .attributeError) :=
  (C61_loop good shown hg _ _ ((C61_raises _ _).2 (.inr ⟨by decide +kernel, rfl⟩)) rest).2

/-! ## The sender -/

/-- **C61.** The message of the sender is 144 bytes, carries the marking `Igor3d`, and is shown by the
receiver as entity 42 at the exact location with the angles rounded, provided the angles fit single
precision. -/
theorem C61_sender (x y z psi theta phi : F64) :
    ∃ p, senderPdu (x, y, z, psi, theta, phi) = .ok p
      ∧ p.marking.charactersString = .ok [73, 103, 111, 114, 51, 100]
      ∧ ((write_float psi).Ok → (write_float theta).Ok → (write_float phi).Ok →
        ∃ b, p.serialize.Emits b ∧ b.length = 144 ∧
          ∃ psi' theta' phi', recv b = .ok (.entity 42 x y z psi' theta' phi')
            ∧ SentAs psi psi' ∧ SentAs theta theta' ∧ SentAs phi phi') := by
  have hm : EntityStatePdu.init.marking.setString [73, 103, 111, 114, 51, 100]
      = .ok ⟨0, [73, 103, 111, 114, 51, 100, 0, 0, 0, 0, 0]⟩ := by decide +kernel
  refine ⟨{ EntityStatePdu.init with
      entityID := ⟨⟨17, 23⟩, 42⟩
      marking := ⟨0, [73, 103, 111, 114, 51, 100, 0, 0, 0, 0, 0]⟩
      entityLocation := ⟨x, y, z⟩
      entityOrientation := ⟨psi, theta, phi⟩ }, by simp only [senderPdu, hm], by
        show EntityMarking.charactersString ⟨0, [73, 103, 111, 114, 51, 100, 0, 0, 0, 0, 0]⟩ = _
        decide +kernel, fun h1 h2 h3 => ?_⟩
  have h1 := ok_float.1 h1
  have h2 := ok_float.1 h2
  have h3 := ok_float.1 h3
  have he := W.Ok.emits ((EntityStatePdu.ok_iff { EntityStatePdu.init with
      entityID := ⟨⟨17, 23⟩, 42⟩
      marking := ⟨0, [73, 103, 111, 114, 51, 100, 0, 0, 0, 0, 0]⟩
      entityLocation := ⟨x, y, z⟩
      entityOrientation := ⟨psi, theta, phi⟩ }).2 (by
    have u0 : U8 0 := ok_unsigned_byte.1 ⟨(), by decide +kernel⟩
    have i0 : U32 0 := ok_unsigned_int.1 ⟨(), by decide +kernel⟩
    have f0 : F32Fits 0 := ok_float.1 ⟨(), by decide +kernel⟩
    refine ⟨?_, ?_, ?_, ?_, ?_, ?_, ⟨f0, f0, f0⟩, ⟨h1, h2, h3⟩, ?_, ?_, ?_, ?_, ?_⟩
    · exact (EntityInformationFamilyPdu.ok_iff EntityStatePdu.init.toEntityInformationFamilyPdu).1 ⟨(), by decide +kernel⟩
    · exact (EntityIdentifier.ok_iff ⟨⟨17, 23⟩, 42⟩).1 ⟨(), by decide +kernel⟩
    · exact u0
    · exact u0
    · exact (EntityType.ok_iff EntityType.init).1 ⟨(), by decide +kernel⟩
    · exact (EntityType.ok_iff EntityType.init).1 ⟨(), by decide +kernel⟩
    · exact i0
    · exact (DeadReckoningParameters.ok_iff DeadReckoningParameters.init).1 ⟨(), by decide +kernel⟩
    · exact (EntityMarking.ok_iff ⟨0, [73, 103, 111, 114, 51, 100, 0, 0, 0, 0, 0]⟩).1 ⟨(), by decide +kernel⟩
    · exact i0
    · intro v hv; cases hv))
  have hl := (C61_entity_too_long _ rfl _ he).1
  obtain ⟨a, b, c, hr, ha, hb, hc⟩ := C61_entity _ rfl _ [] he (by rw [hl]; exact (by decide : 144 ≤ 1024))
  rw [List.append_nil] at hr
  exact ⟨_, he, hl, a, b, c, hr, ha, hb, hc⟩

/-! ## What is shown -/

/-- **C61.** Latitude, longitude and altitude are what `ecef2lla` finds. Turning the local frame by the
angles shown gives the attitude of the entity if the labels "Yaw" and "Roll" are exchanged. -/
theorem C61_display_partial (x y z psi theta phi : ℝ) (s : Shown)
    (h : shown x y z psi theta phi = some (.ok s)) :
    ecef2lla ![x, y, z] defaultTolerance = some (.ok ![s.latitude, s.longitude, s.altitude])
    ∧ nedFrame (s.latitude * Real.pi / 180) (s.longitude * Real.pi / 180)
        * attitude ![s.roll * Real.pi / 180, s.pitch * Real.pi / 180, s.yaw * Real.pi / 180]
      = attitude ![psi, theta, phi] := by
  unfold shown at h
  cases hb : ecef2llarpy x y z psi theta phi with
  | none => rw [hb] at h; cases h
  | some o =>
    cases o with
    | error e => rw [hb] at h; cases h
    | ok body =>
      rw [hb] at h
      obtain ⟨p, q⟩ := body
      simp only [Option.some.injEq, Except.ok.injEq] at h
      have ep : p = ![p 0, p 1, p 2] := by ext i; fin_cases i <;> rfl
      have eq : q = ![q 0, q 1, q 2] := by ext i; fin_cases i <;> rfl
      rw [ep, eq] at hb
      have := C41_ecef2llarpy _ _ _ _ _ _ _ _ _ _ _ _ hb
      have hpi := Real.pi_ne_zero
      subst h
      refine ⟨this.1, ?_⟩
      rw [← this.2]
      have r : ∀ t : ℝ, rad2deg t * Real.pi / 180 = t := by intro t; unfold rad2deg; field_simp
      simp only [r]

/-- The full claim would be about the labels as they are. It fails: an entity on the equator heading
east, with no pitch or roll, is shown with yaw 0 and roll 90. -/
theorem C61_display_violated : ∃ psi theta phi : ℝ,
    attitude ![psi, theta, phi] = nedFrame 0 0 * attitude ![Real.pi / 2, 0, 0] ∧
    ∃ s, shown 6378137 0 0 psi theta phi = some (.ok s)
      ∧ s.latitude = 0 ∧ s.longitude = 0 ∧ s.altitude = 0 ∧ s.yaw = 0 ∧ s.pitch = 0 ∧ s.roll = 90 := by
  have hpi := Real.pi_pos
  obtain ⟨psi, theta, phi, h1, h2⟩ := llarpy_equator 0 0 0 (Real.pi / 2) (by norm_num)
    ⟨by linarith, by linarith⟩ ⟨by linarith, by linarith⟩ ⟨by linarith, by linarith⟩
  have h3 := (C41_llarpy2ecef 0 0 0 0 0 (Real.pi / 2)).2
  rw [h1] at h3
  refine ⟨psi, theta, phi, h3, ?_⟩
  rw [show (6378137 + 0 : ℝ) = 6378137 by norm_num] at h2
  simp only [shown, h2]
  refine ⟨_, rfl, ?_⟩
  have : Real.pi / 2 * 180 / Real.pi = 90 := by field_simp; norm_num
  simp [rad2deg, this]

/-- **C61.** If no rounding happened on the way, the position of an entity at most 100 km from the
ellipsoid and away from the poles would be shown within a few metres; the longitude exactly. -/
theorem C61_position (lat lon alt roll pitch yaw : ℝ) (h1 : -90 < lat ∧ lat < 90)
    (h2 : -180 < lon ∧ lon ≤ 180) (h3 : |alt| ≤ 100000) (x y z psi theta phi : ℝ)
    (h : llarpy2ecef (lat * Real.pi / 180) (lon * Real.pi / 180) alt roll pitch yaw
      = (![x, y, z], ![psi, theta, phi])) :
    ∃ s, shown x y z psi theta phi = some (.ok s) ∧ |s.latitude - lat| ≤ 1.1e-5 + 1e-9 * |alt|
      ∧ s.longitude = lon ∧ |s.altitude - alt| ≤ 1.2 + 2e-4 * |alt| := by
  have hpi := Real.pi_ne_zero
  have hp := (C41_llarpy2ecef (lat * Real.pi / 180) (lon * Real.pi / 180) alt roll pitch yaw).1
  have r : ∀ t : ℝ, t * Real.pi / 180 * 180 / Real.pi = t := by intro t; field_simp
  rw [h, r, r] at hp
  obtain ⟨v, hv, a1, a2, a3⟩ := C39_accuracy lat lon alt defaultTolerance h1 h2 h3
    (by unfold defaultTolerance; norm_num) (by unfold defaultTolerance; norm_num)
  rw [← hp] at hv
  obtain ⟨⟨p, q⟩, hr⟩ := (C41_returns x y z psi theta phi).2 ⟨v, hv⟩
  obtain ⟨s, hs⟩ : ∃ s, shown x y z psi theta phi = some (.ok s) := by unfold shown; rw [hr]; exact ⟨_, rfl⟩
  obtain ⟨e, -⟩ := C61_display_partial _ _ _ _ _ _ _ hs
  rw [hv] at e
  simp only [Option.some.injEq, Except.ok.injEq] at e
  refine ⟨_, hs, ?_, ?_, ?_⟩
  · have := congrFun e 0
    simp only [Matrix.cons_val_zero] at this
    rw [this] at a1; exact a1
  · have := congrFun e 1
    simp only [Matrix.cons_val_one, Matrix.cons_val_zero] at this
    rw [this] at a2; exact a2
  · have := congrFun e 2
    simp only [Matrix.cons_val] at this
    rw [this] at a3; exact a3

/-- **C61.** A new `EntityStatePdu` nobody gave a location is at the centre of the earth, where the
conversion raises: such a message ends the receiver. -/
theorem C61_no_location (psi theta phi : ℝ) :
    (∀ l : WorldCoordinates, l = EntityStatePdu.init.entityLocation →
      ofDouble l.x = 0 ∧ ofDouble l.y = 0 ∧ ofDouble l.z = 0)
    ∧ shown 0 0 0 psi theta phi = some (.error .exception) := by
  constructor
  · rintro l rfl
    have : (0x0000000000000000 : F64).units = 0 := by decide
    refine ⟨?_, ?_, ?_⟩ <;>
    · show (((0x0000000000000000 : F64).units : ℤ) : ℝ) / 2 ^ 1074 = 0
      rw [this]; norm_num
  · unfold shown ecef2llarpy
    rw [C39_centre]

/-! ## Examples -/

/-- The position in the sender, Monterey, is shown within two metres of altitude. -/
example : ∃ x y z psi theta phi s, llarpy2ecef (36.6 * Real.pi / 180) (-121.9 * Real.pi / 180) 1 0 0 0
      = (![x, y, z], ![psi, theta, phi]) ∧ shown x y z psi theta phi = some (.ok s)
      ∧ s.longitude = -121.9 ∧ |s.altitude - 1| ≤ 2 := by
  rcases h : llarpy2ecef (36.6 * Real.pi / 180) (-121.9 * Real.pi / 180) 1 0 0 0 with ⟨p, q⟩
  have ep : p = ![p 0, p 1, p 2] := by ext i; fin_cases i <;> rfl
  have eq : q = ![q 0, q 1, q 2] := by ext i; fin_cases i <;> rfl
  rw [ep, eq] at h
  obtain ⟨s, hs, -, h2, h3⟩ := C61_position 36.6 (-121.9) 1 0 0 0 (by norm_num) (by norm_num)
    (by norm_num) _ _ _ _ _ _ h
  refine ⟨_, _, _, _, _, _, s, by rw [← ep, ← eq], hs, h2, h3.trans ?_⟩
  rw [abs_one]; norm_num

/-- The example entity, 176 bytes, after a message of another kind, before three stray bytes. -/
example : receiver [[7, 1, 11, 5, 0, 0, 0, 9, 3, 231, 0, 0] ++ List.replicate 16 0, exampleBytes, [0, 0, 0],
      exampleBytes]
    = ([.other .CreateEntityPdu 28, .entity 42 (F64.mk 0 1045 12345) 0 0 0 0 0], some .attributeError) := by
  decide +kernel

end Dis
