import Verif.Source.Names

/-!
# The functions of the modules as syntax trees

Written by `tools/gensource.py` from the Python source.
-/

namespace Dis.Src

/-- `Module.getStandardVariableClass`, /repo/opendis/record/__init__.py:40-85. -/
def Module.getStandardVariableClass : Method where
  params := [(I.recordType, none), (I.expectedType, some (.attr (.name I.base) I.StandardVariableRecord))]
  property := false
  body :=
   [.classDef I.UnknownStandardVariableRecord,
    .ite (.or (.not (.isInt (.name I.recordType))) (.cmp .lt (.name I.recordType) (.int 0)))
      [.raise .valueError]
      [],
    .assign (.attr (.name I.UnknownStandardVariableRecord) I.recordType) (.name I.recordType),
    .assign (.name I.vrClass) (.lookup [(3000, I.HighFidelityHAVEQUICKRadio), (4000, I.DirectedEnergyPrecisionAimpoint), (4001, I.DirectedEnergyAreaAimpoint), (4500, I.DirectedEnergyDamage)] (.name I.recordType) (.name I.UnknownStandardVariableRecord)),
    .ite (.not (.issubclass (.name I.vrClass) (.name I.expectedType)))
      [.raise .typeError]
      [],
    .ret (.name I.vrClass)]

/-- `Module.parseStandardVariableRecord`, /repo/opendis/dis7.py:49-68. -/
def Module.parseStandardVariableRecord : Method where
  params := [(I.inputStream, none), (I.expectedType, none)]
  property := false
  body :=
   [.assign (.name I.recordType) (.method (.name I.inputStream) I.read_uint32 [] []),
    .assign (.name I.recordLength) (.method (.name I.inputStream) I.read_uint16 [] []),
    .assign (.name I.svClass) (.func I.getStandardVariableClass [.name I.recordType, .name I.expectedType] []),
    .assign (.name I.sv_instance) (.call I.svClass [] []),
    .expr (.method (.name I.sv_instance) I.parse [.name I.inputStream, .name I.recordLength] []),
    .ret (.name I.sv_instance)]

/-- The functions of the modules, /repo/opendis/record/__init__.py:41-88 and /repo/opendis/dis7.py:49-68. -/
def Module : Class where
  base := none
  attrs := []
  methods :=
   [(I.getStandardVariableClass, Module.getStandardVariableClass),
    (I.parseStandardVariableRecord, Module.parseStandardVariableRecord)]

end Dis.Src
