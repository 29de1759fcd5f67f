import Verif.Spec.SourceArgs

/-!
# What `__init__` of the header does to an object (C77)
-/

namespace Dis.Src

/-- **Specification for C77.** Not `None` (/repo/opendis/dis7.py:3444). -/
def given : Val → Bool
  | .none => false
  | _ => true

/-- **Specification for C77.** `v or d` (/repo/opendis/dis7.py:4042). -/
def orElse (v d : Val) : Val := if truth v then v else d

/-- **Specification for C77.** The attributes of an object after `PduSuperclass.__init__` with these arguments
(/repo/opendis/dis7.py:3438-3460): type *and* family are set only if a type is given. -/
def headerAttrs (version exercise typ family stamp length : Val) (fs : List (Ident × Val)) : List (Ident × Val) :=
  let fs := put I.exerciseID exercise (put I.protocolVersion version fs)
  let fs := if given typ then put I.protocolFamily family (put I.pduType typ fs) else fs
  put I.length length (put I.timestamp stamp fs)

/-- **Specification for C77.** The attributes after `PduSuperclass.__init__` without arguments
(/repo/opendis/dis7.py:3431-3460). -/
def newHeader (fs : List (Ident × Val)) : List (Ident × Val) :=
  headerAttrs (.int 7) (.int 0) .none .none (.int 0) (.int 0) fs

/-- **Specification for C77.** The attributes after `Pdu.__init__` without arguments (/repo/opendis/dis7.py:3701-3706). -/
def newPdu (fs : List (Ident × Val)) : List (Ident × Val) :=
  put I.padding (.int 0) (put I.pduStatus (.int 0) (newHeader fs))

/-- **Specification for C77.** `EntityIdentifier()` (/repo/opendis/dis7.py:4042). -/
def newEntity : Val := EntityIdentifier.enc Dis.EntityIdentifier.init

/-- The attributes of the header (/repo/opendis/dis7.py:3438-3460). -/
def headerNames : List Ident :=
  [I.protocolVersion, I.exerciseID, I.pduType, I.protocolFamily, I.timestamp, I.length]

end Dis.Src
