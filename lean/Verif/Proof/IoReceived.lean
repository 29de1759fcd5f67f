import Verif.Spec.IoReceived
import Verif.Props.Io

/-! # Lemmas about what `createPdu` of the source returns or raises (C79) -/

namespace Dis

open Src Io

theorem received_iff (file : Io.Val → Except PyErr Bytes) (k n : Nat) (d : Bytes) (io : Streams) :
    match createPdu d with
    | .ok (some x) => ∃ v, value x = some v ∧ received file k n d io = .ok (.val v)
    | .ok none => received file k n d io = .ok (.val .none)
    | .error e => received file k n d io = .error e := by
  obtain ⟨io', h⟩ := C79_createPdu file k n d io
  unfold received
  revert h
  rcases createPdu d with e | _ | x
  · intro h; rw [h]
  · intro h; rw [h]
  · rintro ⟨v, hv, h⟩; exact ⟨v, hv, by rw [h]⟩

theorem value_shape (p : AnyPdu) (v : Src.Val) (h : value p = some v) :
    ∃ fs, v = .obj (ident p.cls) fs ∧
      look I.protocolVersion fs = some (.int p.toPdu.protocolVersion) ∧
      look I.exerciseID fs = some (.int p.toPdu.exerciseID) ∧
      look I.pduType fs = some (.int p.toPdu.pduType) ∧
      look I.protocolFamily fs = some (.int p.toPdu.protocolFamily) ∧
      look I.timestamp fs = some (.int p.toPdu.timestamp) ∧
      look I.length fs = some (.int p.toPdu.length) ∧
      look I.pduStatus fs = some (.int p.toPdu.pduStatus) ∧
      look I.padding fs = some (.int p.toPdu.padding) := by
  cases p <;> first
    | (cases h; exact ⟨_, rfl, rfl, rfl, rfl, rfl, rfl, rfl, rfl, rfl⟩)
    | cases h

theorem received_error {file k n d io e} (h : received file k n d io = .error e) : createPdu d = .error e := by
  have := received_iff file k n d io
  revert this
  rcases createPdu d with e' | _ | x
  · intro h'; rw [h] at h'; cases h'; rfl
  · intro h'; rw [h] at h'; cases h'
  · rintro ⟨v, -, h'⟩; rw [h] at h'; cases h'

theorem received_of_error {d e} (h : createPdu d = .error e) (file k n io) : received file k n d io = .error e := by
  have := received_iff file k n d io
  rw [h] at this; exact this

theorem value_ne_none (x : AnyPdu) : value x ≠ some .none := by
  intro h
  obtain ⟨fs, h, -⟩ := value_shape x _ h
  cases h

theorem received_obj {file k n d io} {v : Src.Val} (h : received file k n d io = .ok (.val v)) (hv : v ≠ .none) :
    ∃ p, createPdu d = .ok (some p) ∧ value p = some v := by
  have := received_iff file k n d io
  revert this
  rcases createPdu d with e' | _ | x
  · intro h'; rw [h] at h'; cases h'
  · intro h'; rw [h] at h'; cases h'; exact absurd rfl hv
  · rintro ⟨w, hw, h'⟩; rw [h] at h'; cases h'; exact ⟨x, rfl, hw⟩

theorem received_of_obj {d p v} (h : createPdu d = .ok (some p)) (hv : value p = some v) (file k n io) :
    received file k n d io = .ok (.val v) := by
  have := received_iff file k n d io
  rw [h] at this
  obtain ⟨w, hw, this⟩ := this
  obtain rfl : v = w := Option.some.inj (hv.symm.trans hw)
  exact this

end Dis
