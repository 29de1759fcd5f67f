import Verif.Proof.Received
import Verif.Props.Factory

/-!
# C60: the header of whatever the factory returns

`C14_header` is about messages that were serialized; this is about arbitrary data.
-/

namespace Dis

/-- **C60.** Whenever the factory returns an object, for arbitrary data, its header attributes are the
numbers in the first 12 bytes of the data. -/
theorem C60_header (d : Bytes) (p : AnyPdu) (h : createPdu d = .ok (some p)) :
    12 ≤ d.length ∧
    fieldAt d 0 1 = p.toPdu.protocolVersion ∧ fieldAt d 1 1 = p.toPdu.exerciseID ∧
    fieldAt d 2 1 = p.toPdu.pduType ∧ fieldAt d 3 1 = p.toPdu.protocolFamily ∧
    fieldAt d 4 4 = p.toPdu.timestamp ∧ fieldAt d 8 2 = p.toPdu.length ∧
    fieldAt d 10 1 = p.toPdu.pduStatus ∧ fieldAt d 11 1 = p.toPdu.padding := by
  obtain ⟨b, post, rfl, hb, -⟩ := createPdu_header h
  exact Pdu.fields post hb

/-- **C60.** The type number in the object is the one its class is registered under, even if the class
constructs its objects with another number. -/
theorem C60_type (d : Bytes) (p : AnyPdu) (h : createPdu d = .ok (some p)) :
    PduTypeDecoders.lookup p.toPdu.pduType = some p.cls := by
  obtain ⟨-, -, -, -, t, ht, hc⟩ := createPdu_header h
  obtain ⟨hl, -, -, h2, -⟩ := C60_header d p h
  rw [← h2, fieldAt_byte (by omega)]
  rw [List.getElem?_eq_getElem (by omega)] at ht
  cases ht
  exact hc

/-- **C60.** Two messages with the same first 12 bytes that are both decoded give objects of the same
class with the same header, whatever follows. -/
theorem C60_first_12_bytes (d d' : Bytes) (p p' : AnyPdu) (h : createPdu d = .ok (some p))
    (h' : createPdu d' = .ok (some p')) (e : d.take 12 = d'.take 12) :
    p.toPdu = p'.toPdu ∧ p.cls = p'.cls := by
  have t := C60_type d p h
  have t' := C60_type d' p' h'
  have hp : p.toPdu = p'.toPdu := by
    obtain ⟨b, post, rfl, hb, -⟩ := createPdu_header h
    obtain ⟨b', post', rfl, hb', -⟩ := createPdu_header h'
    have l : b.length = 12 := Pdu.sized _ _ hb
    have l' : b'.length = 12 := Pdu.sized _ _ hb'
    rw [List.take_left' l, List.take_left' l'] at e
    subst e
    have u := (Pdu.rt p.toPdu p.toPdu b hb).unique (Pdu.rt p.toPdu p'.toPdu b hb')
    rw [Pdu.after_canon (by trivial), Pdu.after_canon (by trivial)] at u
    exact u
  rw [hp, t'] at t
  exact ⟨hp, (Option.some.inj t).symm⟩

/-- A message of type 11 whose length field says 999 although the data end after 28 bytes: the length
attribute is 999. -/
example : ∃ p, createPdu ([7, 1, 11, 5, 0, 0, 0, 9, 3, 231, 0, 0] ++ List.replicate 16 0) = .ok (some p)
    ∧ p.toPdu.length = 999 ∧ p.toPdu.timestamp = 9 ∧ p.cls = .CreateEntityPdu := by
  have ok : ∃ p, createPdu ([7, 1, 11, 5, 0, 0, 0, 9, 3, 231, 0, 0] ++ List.replicate 16 0) = .ok (some p)
      ∧ p.cls = .CreateEntityPdu := by
    have hr : ((PduClass.CreateEntityPdu.decode ⟨[7, 1, 11, 5, 0, 0, 0, 9, 3, 231, 0, 0] ++ List.replicate 16 0, 0⟩).1).isOk
        = true := by decide +kernel
    rw [createPdu_some (t := 11) (c := .CreateEntityPdu) (by decide) (by decide)]
    rcases h : PduClass.CreateEntityPdu.decode ⟨[7, 1, 11, 5, 0, 0, 0, 9, 3, 231, 0, 0] ++ List.replicate 16 0, 0⟩
      with ⟨_ | p, s⟩
    · rw [h] at hr; cases hr
    · exact ⟨p, rfl, PduClass.decode_cls _ _ _ _ h⟩
  obtain ⟨p, hp, hc⟩ := ok
  obtain ⟨-, -, -, -, -, ht, hl, -⟩ := C60_header _ p hp
  exact ⟨p, hp, hl.symm.trans (by decide), ht.symm.trans (by decide), hc⟩

end Dis
