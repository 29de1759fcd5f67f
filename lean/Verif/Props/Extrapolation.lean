import Verif.Proof.Single
import Verif.Proof.Rates
import Verif.Model.Demo
import Verif.Props.Factory
import Verif.Props.Rounding

/-!
# From the sender's numbers to the receiver's extrapolated position (C63)

`extrapolate` is what `examples/dis_dead_reckoning.py` does with a message; `vec3 x y z` is a vector with
these components, `ofDouble` the number a finite double stands for, `P.SquareOk` what is assumed of `dt ** 2`.
-/

set_option exponentiation.threshold 4096

namespace Dis

open Geo

/-- **C63.** An entity state message is sent, received by the factory and extrapolated by `t` seconds. Each
finite component of the position is the sender's `p + v t + a t²/2` with a relative error of about 2^-24 on
the distance travelled, from the single-precision fields, and 2^-50 on the position. -/
theorem C63_extrapolated (P : Dbl.Platform) (hP : P.SquareOk) (m : EntityStatePdu) (ht : m.pduType = 1)
    (b post : Bytes) (hb : m.serialize.Emits b) :
    ∃ m', createPdu (b ++ post) = .ok (some (.EntityStatePdu m')) ∧
      ∀ (t : F64) (pos ori : Dbl.Vec), extrapolate P m' t = .ok (pos, ori) →
      ∀ (i : Fin 3) (p v a : ℝ), (pos i).Finite →
        p = ofDouble (vec3 m.entityLocation.x m.entityLocation.y m.entityLocation.z i) →
        v = ofDouble (vec3 m.entityLinearVelocity.x m.entityLinearVelocity.y m.entityLinearVelocity.z i) →
        a = ofDouble (vec3 m.deadReckoningParameters.entityLinearAcceleration.x
          m.deadReckoningParameters.entityLinearAcceleration.y
          m.deadReckoningParameters.entityLinearAcceleration.z i) →
        |ofDouble (pos i) - (p + v * ofDouble t + a * ofDouble t ^ 2 / 2)|
          ≤ (1 / 2 ^ 24 + 1 / 2 ^ 48) * (|v * ofDouble t| + |a * ofDouble t ^ 2 / 2|)
            + 1 / 2 ^ 50 * |p| + 1 / 2 ^ 149 * (1 + |ofDouble t| + ofDouble t ^ 2) := by
  have hr := (C21_factory_round_trip (.EntityStatePdu m) trivial (by
    show PduTypeDecoders.lookup m.pduType = _; rw [ht]
    exact (by decide : PduTypeDecoders.lookup 1 = some PduClass.EntityStatePdu)) b hb post).1
  have w := (EntityStatePdu.ok_iff m).1 hb.ok
  obtain ⟨-, -, -, -, -, -, ⟨wv1, wv2, wv3⟩, -, -, ⟨-, -, ⟨wa1, wa2, wa3⟩, -⟩, -⟩ := w
  refine ⟨EntityStatePdu.after EntityStatePdu.init m, hr, fun t pos ori he i p v a hf hp hv ha => ?_⟩
  have h2 := C62_rvw P _ _ _ _ _ _ _ t he
  unfold Dbl.drm_fvw at h2
  cases hq : P.square t with
  | error e => rw [hq] at h2; cases h2
  | ok s =>
    rw [hq] at h2
    cases h2
    have hd := (F64.mul_finite (F64.add_finite (F64.add_finite hf).1).2.1).2.1
    have hv' := (F64.mul_finite (F64.add_finite (F64.add_finite hf).1).2.1).1
    have hs := (F64.mul_finite (F64.add_finite hf).2.1).2.1
    have ha' := (F64.mul_finite (F64.mul_finite (F64.add_finite hf).2.1).1).2.1
    have hm := fvw_error (hP t s hd hq hs) hf
    have key : ∀ (x y z : F64), F32Fits x → F32Fits y → F32Fits z →
        (vec3 (quant x) (quant y) (quant z) i).Finite →
        |ofDouble (vec3 (quant x) (quant y) (quant z) i) - ofDouble (vec3 x y z i)|
          ≤ 1 / 2 ^ 24 * |ofDouble (vec3 x y z i)| + 1 / 2 ^ 150 ∧
        |ofDouble (vec3 (quant x) (quant y) (quant z) i)| ≤ 2 ^ 128 := by
      rintro x y z ⟨_, h1⟩ ⟨_, h2⟩ ⟨_, h3⟩ hh
      match i with
      | 0 => exact (val_quant (quant_not_finite h1 hh) h1).2
      | 1 => exact (val_quant (quant_not_finite h2 hh) h2).2
      | 2 => exact (val_quant (quant_not_finite h3 hh) h3).2
    obtain ⟨k1, -⟩ := key _ _ _ wv1 wv2 wv3 hv'
    obtain ⟨k2, k3⟩ := key _ _ _ wa1 wa2 wa3 ha'
    rw [← hv] at k1
    rw [← ha] at k2
    have := fvw_quant (p := p) k1 k2 k3 (by rw [hp]; exact hm)
    exact this

/-- **C63.** So within 8000 km of the centre of the earth per axis, after travelling up to 131 km in up to
1024 s, the extrapolated coordinate is within a centimetre of the sender's. -/
theorem C63_centimetre (P : Dbl.Platform) (hP : P.SquareOk) (m : EntityStatePdu) (ht : m.pduType = 1)
    (b post : Bytes) (hb : m.serialize.Emits b) :
    ∃ m', createPdu (b ++ post) = .ok (some (.EntityStatePdu m')) ∧
      ∀ (t : F64) (pos ori : Dbl.Vec), extrapolate P m' t = .ok (pos, ori) → |ofDouble t| ≤ 1024 →
      ∀ (i : Fin 3) (p v a : ℝ), (pos i).Finite →
        p = ofDouble (vec3 m.entityLocation.x m.entityLocation.y m.entityLocation.z i) →
        v = ofDouble (vec3 m.entityLinearVelocity.x m.entityLinearVelocity.y m.entityLinearVelocity.z i) →
        a = ofDouble (vec3 m.deadReckoningParameters.entityLinearAcceleration.x
          m.deadReckoningParameters.entityLinearAcceleration.y
          m.deadReckoningParameters.entityLinearAcceleration.z i) →
        |p| ≤ 8000000 → |v * ofDouble t| + |a * ofDouble t ^ 2 / 2| ≤ 131000 →
        |ofDouble (pos i) - (p + v * ofDouble t + a * ofDouble t ^ 2 / 2)| < 1 / 100 := by
  obtain ⟨m', h1, h2⟩ := C63_extrapolated P hP m ht b post hb
  refine ⟨m', h1, fun t pos ori he hT i p v a hf hp hv ha bp bd => ?_⟩
  refine lt_of_le_of_lt (h2 t pos ori he i p v a hf hp hv ha) ?_
  have hT2 : ofDouble t ^ 2 ≤ 1024 ^ 2 := by
    rw [← sq_abs]
    exact pow_le_pow_left₀ (abs_nonneg _) hT 2
  have n1 := abs_nonneg (v * ofDouble t)
  have n2 := abs_nonneg (a * ofDouble t ^ 2 / 2)
  generalize |v * ofDouble t| = X at *
  generalize |a * ofDouble t ^ 2 / 2| = Y at *
  generalize ofDouble t ^ 2 = Z at *
  generalize |ofDouble t| = T at *
  generalize |p| = W at *
  norm_num at *
  linarith

/-- **C63.** Extrapolating a message raises exactly what `dt ** 2` raises, or else a `ValueError` if the pitch or the
roll it carries is infinite. -/
theorem C63_raises (P : Dbl.Platform) (m : EntityStatePdu) (t : F64) (e : PyErr) :
    extrapolate P m t = .error e ↔ P.square t = .error e ∨
      (∃ s, P.square t = .ok s) ∧ e = .valueError ∧
        (m.entityOrientation.theta.Infinite ∨ m.entityOrientation.phi.Infinite) := by
  have hrates : ∀ av : Dbl.Vec, ∀ psi theta phi : F64, ∀ e',
      Dbl.rates P (vec3 psi theta phi) av = .error e' ↔ e' = .valueError ∧ (theta.Infinite ∨ phi.Infinite) := by
    intro av psi theta phi e'
    exact Dbl.rates_error e'
  unfold extrapolate Dbl.drm_rvw
  cases hq : P.square t with
  | error e' =>
    refine ⟨(fun h => by cases h; exact .inl rfl), ?_⟩
    rintro (h | ⟨⟨s, h⟩, -⟩)
    · cases h; rfl
    · cases h
  | ok s =>
    unfold Dbl.drm_rpw
    dsimp only
    cases hr : Dbl.rates P (vec3 m.entityOrientation.psi m.entityOrientation.theta m.entityOrientation.phi)
        (vec3 m.deadReckoningParameters.entityAngularVelocity.x
          m.deadReckoningParameters.entityAngularVelocity.y
          m.deadReckoningParameters.entityAngularVelocity.z) with
    | error e' =>
      obtain ⟨rfl, h2⟩ := (hrates _ _ _ _ _).1 hr
      refine ⟨(fun h => by cases h; exact .inr ⟨⟨s, rfl⟩, rfl, h2⟩), ?_⟩
      rintro (h | ⟨-, rfl, -⟩)
      · cases h
      · rfl
    | ok d =>
      refine iff_of_false (fun h => by cases h) ?_
      rintro (h | ⟨-, rfl, h2⟩)
      · cases h
      · cases hr.symm.trans ((hrates _ _ _ _ .valueError).2 ⟨rfl, h2⟩)

/-! ## Examples -/

/-- The example message of `Verif/Props/Codecs.lean`, sent and received, half a second later on a platform
that meets the assumption: the velocity is (2, -1, 0) m/s. -/
example : reference.SquareOk ∧ exampleEntity.pduType = 1 ∧ exampleEntity.serialize.Emits exampleBytes ∧
    ∃ pos ori, extrapolate reference exampleEntity 0x3fe0000000000000 = .ok (pos, ori) ∧
      (pos 0).Finite ∧ pos 0 = 0x4150000040003039 ∧ pos 1 = 0xbfe0000000000000 := by
  refine ⟨reference_square, rfl, exampleEmits, ?_⟩
  have h := Dbl.rates_ok (P := reference) (o := vec3 exampleEntity.entityOrientation.psi
    exampleEntity.entityOrientation.theta exampleEntity.entityOrientation.phi) (av := vec3
      exampleEntity.deadReckoningParameters.entityAngularVelocity.x
      exampleEntity.deadReckoningParameters.entityAngularVelocity.y
      exampleEntity.deadReckoningParameters.entityAngularVelocity.z)
    (by unfold F64.Infinite; decide +kernel) (by unfold F64.Infinite; decide +kernel)
  unfold extrapolate Dbl.drm_rvw Dbl.drm_rpw
  dsimp only
  rw [h]
  refine ⟨_, _, rfl, ?_, ?_, ?_⟩
  · show F64.expo _ ≠ 2047
    decide +kernel
  · decide +kernel
  · decide +kernel

end Dis
