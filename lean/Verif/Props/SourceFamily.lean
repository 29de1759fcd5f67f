import Verif.Proof.SourceInitMore
import Verif.Props.Source

/-!
# C77: `__init__` of the header and of the families, as syntax trees

The constructors of the PDUs call `__init__` of their families without arguments. Here `__init__` of the families and of the
header gets arguments, on any object (`Family.__init__(pdu, ...)`, or in a subclass that is not part of the library).
-/

namespace Dis

open Src

/-- **C77.** `PduSuperclass.__init__` with any arguments, on any object that has a type or is given one: it sets version,
exercise, timestamp and length, and type and family if a type is given. A family given without a type is dropped. -/
theorem C77_header_init (k : Ident) (fs : List (Ident × Src.Val)) (version exercise typ family stamp length : Src.Val)
    (args : List Src.Val) (kws : List (Ident × Src.Val))
    (hs : Supplied PduSuperclass.__init__.params args kws [version, exercise, typ, family, stamp, length])
    (hp : ∀ f ∈ headerNames, isProperty program k f = false)
    (ht : given typ = true ∨ (look I.pduType fs).isSome = true) (n : Nat) (io : Streams) :
    methods program words streams (n + 8) I.PduSuperclass I.__init__ (.obj k fs) args kws io =
      (.ok .none, .obj k (headerAttrs version exercise typ family stamp length fs), io) :=
  (init_named (n := n + 7) (d := I.PduSuperclass) (f := PduSuperclass.__init__) (by kernel_rfl) hs io).trans
    (header_init (n + 7) k version exercise typ family stamp length fs hp ht io)

/-- **C77.** Without a type, neither given nor in the object, it raises `ValueError`. -/
theorem C77_header_raises (k : Ident) (fs : List (Ident × Src.Val)) (version exercise family stamp length : Src.Val)
    (args : List Src.Val) (kws : List (Ident × Src.Val))
    (hs : Supplied PduSuperclass.__init__.params args kws [version, exercise, .none, family, stamp, length])
    (hp : ∀ f ∈ headerNames, isProperty program k f = false) (ht : look I.pduType fs = none) (n : Nat) (io : Streams) :
    ∃ v, methods program words streams (n + 8) I.PduSuperclass I.__init__ (.obj k fs) args kws io = (.error .valueError, v, io) := by
  obtain ⟨v, hv⟩ := header_raises (n + 7) k version exercise family stamp length fs hp ht io
  exact ⟨v, (init_named (n := n + 7) (d := I.PduSuperclass) (f := PduSuperclass.__init__) (by kernel_rfl) hs io).trans hv⟩

theorem header_plain : ∀ f ∈ headerNames, isProperty program I.PduSuperclass f = false := by
  intro f hf
  simp only [headerNames, List.mem_cons, List.not_mem_nil, or_false] at hf
  rcases hf with rfl | rfl | rfl | rfl | rfl | rfl <;> kernel_rfl

/-- **C77.** `PduSuperclass(...)` makes an object with the six attributes given, or raises `ValueError` if no type is given. -/
theorem C77_construct_header (version exercise typ family stamp length : Src.Val)
    (args : List Src.Val) (kws : List (Ident × Src.Val))
    (hs : Supplied PduSuperclass.__init__.params args kws [version, exercise, typ, family, stamp, length])
    (n : Nat) (st : St) :
    construct program words (methods program words streams (n + 8)) I.PduSuperclass args kws st =
      if given typ then
        (.ok (.obj I.PduSuperclass
          [(I.protocolVersion, version), (I.exerciseID, exercise), (I.timestamp, stamp), (I.length, length), (I.pduType, typ), (I.protocolFamily, family)]), st)
      else (.error .valueError, st) := by
  have hc : classAttrs program 16 I.PduSuperclass = [] := by kernel_rfl
  have hm : method program I.PduSuperclass I.__init__ = some (I.PduSuperclass, PduSuperclass.__init__) := by kernel_rfl
  unfold construct
  simp only [show words.init = I.__init__ from rfl, hm, hc]
  cases hg : given typ with
  | true =>
    rw [C77_header_init I.PduSuperclass [] version exercise typ family stamp length args kws hs header_plain (.inl hg) n st.io]
    simp only [headerAttrs, hg, if_true]
    rfl
  | false =>
    have ht : typ = .none := by cases typ <;> first | rfl | cases hg
    subst ht
    obtain ⟨v, hv⟩ := C77_header_raises I.PduSuperclass [] version exercise family stamp length args kws hs header_plain rfl n st.io
    rw [hv]
    rfl

/-- **C77.** `LiveEntityPdu.__init__` and `Pdu.__init__` on any object that has a type. -/
theorem C77_pdu_init (k : Ident) (fs : List (Ident × Src.Val)) (v : Src.Val) (args : List Src.Val) (kws : List (Ident × Src.Val))
    (hp : ∀ f ∈ I.subprotocolNumber :: I.pduStatus :: I.padding :: headerNames, isProperty program k f = false)
    (ht : (look I.pduType fs).isSome = true) (n : Nat) (io : Streams) :
    (Supplied LiveEntityPdu.__init__.params args kws [v] →
      methods program words streams (n + 8) I.LiveEntityPdu I.__init__ (.obj k fs) args kws io =
        (.ok .none, .obj k (put I.padding (.int 0) (put I.subprotocolNumber v (newHeader fs))), io)) ∧
    (Supplied Pdu.__init__.params args kws [v] →
      methods program words streams (n + 8) I.Pdu I.__init__ (.obj k fs) args kws io =
        (.ok .none, .obj k (put I.padding (.int 0) (put I.pduStatus v (newHeader fs))), io)) := by
  constructor <;> intro hs
  · exact (init_named (n := n + 7) (d := I.LiveEntityPdu) (f := LiveEntityPdu.__init__) (by kernel_rfl) hs io).trans
      (live_init (n + 6) k v fs (fun f hf => hp f (by
        simp only [List.mem_cons] at hf ⊢; rcases hf with h | h | h <;> simp [h])) ht io)
  · exact (init_named (n := n + 7) (d := I.Pdu) (f := Pdu.__init__) (by kernel_rfl) hs io).trans
      (pdu_init (n + 6) k v fs (fun f hf => hp f (.tail _ hf)) ht io)

/-- **C77.** `__init__` of the families of simulation management, on any object that has a type: each of the two entities is
the one given, or a new one. -/
theorem C77_management_init (k : Ident) (fs : List (Ident × Src.Val)) (u v : Src.Val) (args : List Src.Val)
    (kws : List (Ident × Src.Val))
    (hp : ∀ f ∈ I.originatingEntityID :: I.receivingEntityID :: I.pduStatus :: I.padding :: headerNames,
      isProperty program k f = false)
    (ht : (look I.pduType fs).isSome = true) (n : Nat) (io : Streams) :
    (Supplied SimulationManagementFamilyPdu.__init__.params args kws [u, v] →
      methods program words streams (n + 8) I.SimulationManagementFamilyPdu I.__init__ (.obj k fs) args kws io =
        (.ok .none, .obj k (put I.receivingEntityID (orElse v newEntity) (put I.originatingEntityID (orElse u newEntity)
          (newPdu fs))), io)) ∧
    (Supplied SimulationManagementWithReliabilityFamilyPdu.__init__.params args kws [u, v] →
      methods program words streams (n + 8) I.SimulationManagementWithReliabilityFamilyPdu I.__init__ (.obj k fs) args kws io =
        (.ok .none, .obj k (put I.receivingEntityID (orElse v newEntity) (put I.originatingEntityID (orElse u newEntity)
          (newPdu fs))), io)) := by
  constructor <;> intro hs
  · exact (init_named (n := n + 7) (d := I.SimulationManagementFamilyPdu) (f := SimulationManagementFamilyPdu.__init__)
      (by kernel_rfl) hs io).trans (management_init (n + 4) k u v fs hp ht io)
  · exact (init_named (n := n + 7) (d := I.SimulationManagementWithReliabilityFamilyPdu)
      (f := SimulationManagementWithReliabilityFamilyPdu.__init__) (by kernel_rfl) hs io).trans
      (reliable_init (n + 4) k u v fs hp ht io)

/-- **C77.** `__init__` of the family of warfare, on any object that has a type. -/
theorem C77_warfare_init (k : Ident) (fs : List (Ident × Src.Val)) (u v : Src.Val) (args : List Src.Val)
    (kws : List (Ident × Src.Val)) (hs : Supplied WarfareFamilyPdu.__init__.params args kws [u, v])
    (hp : ∀ f ∈ I.firingEntityID :: I.targetEntityID :: I.pduStatus :: I.padding :: headerNames, isProperty program k f = false)
    (ht : (look I.pduType fs).isSome = true) (n : Nat) (io : Streams) :
    methods program words streams (n + 8) I.WarfareFamilyPdu I.__init__ (.obj k fs) args kws io =
      (.ok .none, .obj k (put I.targetEntityID (orElse v newEntity) (put I.firingEntityID (orElse u newEntity)
        (newPdu fs))), io) :=
  (init_named (n := n + 7) (d := I.WarfareFamilyPdu) (f := WarfareFamilyPdu.__init__) (by kernel_rfl) hs io).trans
    (warfare_init (n + 4) k u v fs hp ht io)

/-- **C77.** No arguments help the constructors that raise: `LinearObjectStatePdu(...)` raises `NameError` and
`AttributePdu(...)` raises `ValueError` for all arguments. -/
theorem C77_raises_with (args : List Src.Val) (kws : List (Ident × Src.Val)) (vs : List Src.Val) (n : Nat) (st : St) :
    (Supplied LinearObjectStatePdu.__init__.params args kws vs →
      construct program words (methods program words streams (n + 8)) I.LinearObjectStatePdu args kws st = (.error .nameError, st)) ∧
    (Supplied AttributePdu.__init__.params args kws vs →
      construct program words (methods program words streams (n + 8)) I.AttributePdu args kws st = (.error .valueError, st)) := by
  constructor <;> intro hs
  · have hm : method program I.LinearObjectStatePdu I.__init__ = some (I.LinearObjectStatePdu, LinearObjectStatePdu.__init__) := by
      kernel_rfl
    obtain ⟨a, b, c, d, e, f, g, h, rfl⟩ : ∃ a b c d e f g h, vs = [a, b, c, d, e, f, g, h] := by
      have hl := hs.length
      match vs, hl with
      | [a, b, c, d, e, f, g, h], _ => exact ⟨a, b, c, d, e, f, g, h, rfl⟩
    obtain ⟨v, hv⟩ := segments_raises (n + 4) a b c d e f g h st.io
    unfold construct
    simp only [show words.init = I.__init__ from rfl, hm]
    rw [show methods program words streams (n + 8) I.LinearObjectStatePdu I.__init__ _ args kws st.io = _ from
      (init_named (n := n + 7) hm hs st.io).trans hv]
  · have hm : method program I.AttributePdu I.__init__ = some (I.AttributePdu, AttributePdu.__init__) := by kernel_rfl
    obtain ⟨a, b, c, d, e, f, rfl⟩ : ∃ a b c d e f, vs = [a, b, c, d, e, f] := by
      have hl := hs.length
      match vs, hl with
      | [a, b, c, d, e, f], _ => exact ⟨a, b, c, d, e, f, rfl⟩
    obtain ⟨v, hv⟩ := attribute_raises (n + 4) a b c d e f st.io
    unfold construct
    simp only [show words.init = I.__init__ from rfl, hm]
    rw [show methods program words streams (n + 8) I.AttributePdu I.__init__ _ args kws st.io = _ from
      (init_named (n := n + 7) hm hs st.io).trans hv]

/-- **C77.** `HighFidelityHAVEQUICKRadio(...)` with any arguments. -/
theorem C77_construct_radio (net : Option NetId) (t d w1 w2 w3 w4 w5 w6 : Int) (args : List Src.Val) (kws : List (Ident × Src.Val))
    (hs : Supplied HighFidelityHAVEQUICKRadio.__init__.params args kws
      [optArg NetId.enc net, .int t, .int d, .int w1, .int w2, .int w3, .int w4, .int w5, .int w6]) (n : Nat) (st : St) :
    construct program words (methods program words streams (n + 8)) I.HighFidelityHAVEQUICKRadio args kws st =
      (.ok (.obj I.HighFidelityHAVEQUICKRadio (HighFidelityHAVEQUICKRadio.fields
        (Dis.HighFidelityHAVEQUICKRadio.init net t d w1 w2 w3 w4 w5 w6))), st) :=
  (HighFidelityHAVEQUICKRadio.makesOf (n + 5) net t d w1 w2 w3 w4 w5 w6).named (d := I.HighFidelityHAVEQUICKRadio)
    (f := HighFidelityHAVEQUICKRadio.__init__) (by kernel_rfl) hs st

/-- **C77.** `UnknownStandardVariableRecord(data)`, for the class made for the type `t`. -/
theorem C77_construct_unknown (t : Int) (b : Bytes) (args : List Src.Val) (kws : List (Ident × Src.Val))
    (hs : Supplied UnknownStandardVariableRecord.__init__.params args kws [.bytes b]) (n : Nat) (st : St) :
    constructOwn program words (methods program words streams (n + 8)) I.UnknownStandardVariableRecord [(I.recordType, .int t)]
      args kws st =
      (.ok (.obj I.UnknownStandardVariableRecord (UnknownStandardVariableRecord.fields { recordType := t, data := b })), st) := by
  have hm : method program I.UnknownStandardVariableRecord I.__init__ =
      some (I.UnknownStandardVariableRecord, UnknownStandardVariableRecord.__init__) := by kernel_rfl
  have h := (init_named (n := n + 7) (o := .obj I.UnknownStandardVariableRecord [(I.recordType, .int t)]) hm hs st.io).trans
    (runs_init hm rfl (by rfl) (by rfl) (inits_set (fun _ => gives_name rfl) (by kernel_rfl) (inits_nil rfl)) st.io)
  have hf : List.foldl (fun fs (a : Ident × Src.Val) => put a.1 a.2 fs) (classAttrs program 16 I.UnknownStandardVariableRecord)
      [(I.recordType, .int t)] = [(I.recordType, .int t)] := by kernel_rfl
  unfold constructOwn
  rw [hf, show methods program words streams (n + 8) I.UnknownStandardVariableRecord words.init _ args kws st.io = _ from h]
  rfl

/-! Concrete cases. -/

/-- `PduSuperclass(6, pduType=1, timestamp=99)`. -/
example : Supplied PduSuperclass.__init__.params [.int 6] [(I.timestamp, .int 99), (I.pduType, .int 1)]
    [.int 6, .int 0, .int 1, .none, .int 99, .int 0] :=
  ⟨rfl, .inr ⟨rfl, _, rfl, rfl⟩, .inl rfl, .inr ⟨rfl, _, rfl, rfl⟩, .inl rfl, .inr ⟨rfl, _, rfl, rfl⟩, rfl, rfl⟩

/-- The attributes of an `AcknowledgePdu` can be set, and it has a type. -/
theorem acknowledge_plain : ∀ f ∈ I.originatingEntityID :: I.receivingEntityID :: I.pduStatus :: I.padding :: headerNames,
    isProperty program I.AcknowledgePdu f = false := by
  intro f hf
  simp only [headerNames, List.mem_cons, List.not_mem_nil, or_false] at hf
  rcases hf with rfl | rfl | rfl | rfl | rfl | rfl | rfl | rfl | rfl | rfl <;> kernel_rfl

example : (look I.pduType (classAttrs program 16 I.AcknowledgePdu)).isSome = true := by kernel_rfl

/-- `PduSuperclass.__init__(pdu, protocolFamily=9)` for an `AcknowledgePdu`: the family 9 is dropped, that of the class stays. -/
example : look I.protocolFamily (headerAttrs (.int 7) (.int 0) .none (.int 9) (.int 0) (.int 0)
    (classAttrs program 16 I.AcknowledgePdu)) = some (.int 5) := by kernel_rfl

/-- `SimulationManagementFamilyPdu.__init__(pdu, receivingEntityID=e)` for an `AcknowledgePdu`. -/
example (n : Nat) (io : Streams) :
    ∃ fs, methods program words streams (n + 8) I.SimulationManagementFamilyPdu I.__init__
      (.obj I.AcknowledgePdu (classAttrs program 16 I.AcknowledgePdu)) []
      [(I.receivingEntityID, EntityIdentifier.enc { simulationAddress := { site := 17, application := 23 }, entityNumber := 42 })] io =
      (.ok .none, .obj I.AcknowledgePdu fs, io) ∧
      look I.receivingEntityID fs =
        some (EntityIdentifier.enc { simulationAddress := { site := 17, application := 23 }, entityNumber := 42 }) ∧
      look I.originatingEntityID fs = some newEntity :=
  ⟨_, (C77_management_init I.AcknowledgePdu (classAttrs program 16 I.AcknowledgePdu) .none
    (EntityIdentifier.enc { simulationAddress := { site := 17, application := 23 }, entityNumber := 42 }) [] _ acknowledge_plain
    (by kernel_rfl) n io).1 ⟨.inr ⟨rfl, _, rfl, rfl⟩, .inl rfl, rfl, rfl⟩, by kernel_rfl, by kernel_rfl⟩

/-- `AttributePdu(actionCode=3)`. -/
example : Supplied AttributePdu.__init__.params [] [(I.actionCode, .int 3)]
    [.none, .int 0, .int 0, .int 0, .int 3, .int 0] :=
  ⟨.inr ⟨rfl, _, rfl, rfl⟩, .inr ⟨rfl, _, rfl, rfl⟩, .inr ⟨rfl, _, rfl, rfl⟩, .inr ⟨rfl, _, rfl, rfl⟩, .inl rfl,
    .inr ⟨rfl, _, rfl, rfl⟩, rfl, rfl⟩

/-- `HighFidelityHAVEQUICKRadio(wod4=11)`. -/
example : Supplied HighFidelityHAVEQUICKRadio.__init__.params [] [(I.wod4, .int 11)]
    [optArg NetId.enc none, .int 0, .int 0, .int 0, .int 0, .int 0, .int 11, .int 0, .int 0] :=
  ⟨.inr ⟨rfl, _, rfl, rfl⟩, .inr ⟨rfl, _, rfl, rfl⟩, .inr ⟨rfl, _, rfl, rfl⟩, .inr ⟨rfl, _, rfl, rfl⟩,
    .inr ⟨rfl, _, rfl, rfl⟩, .inr ⟨rfl, _, rfl, rfl⟩, .inl rfl, .inr ⟨rfl, _, rfl, rfl⟩, .inr ⟨rfl, _, rfl, rfl⟩, rfl, rfl⟩

example : Supplied UnknownStandardVariableRecord.__init__.params [.bytes [1, 2]] [] [.bytes [1, 2]] := ⟨rfl, rfl, rfl⟩

end Dis
