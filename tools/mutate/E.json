[{"id": "E1", "definition": "StandardVariableRecord.serialize", "claim": "the classes do what their text says (C77)", "expect": ["C77"], "edits": [{"file": "Verif/Source/Records.lean", "within": "StandardVariableRecord.serialize", "old": "    .expr (.method (.name I.outputStream) I.write_uint32 [.attr (.name I.self) I.recordType] []),\n", "new": "", "descr": "dropped: .expr (.method (.name I.outputStream) I.write_uint32 [.attr (.name I.self) I.recordType] []),"}]}, {"id": "E2", "definition": "StandardVariableRecord.parse", "claim": "the classes do what their text says (C77)", "expect": ["C77"], "edits": [{"file": "Verif/Source/Records.lean", "within": "StandardVariableRecord.parse", "old": "    .ite (.not (.cmp .eq (.bin .mod (.name I.bytelength) (.int 8)) (.int 0)))", "new": "    .ite (.not (.cmp .eq (.bin .mod (.name I.bytelength) (.int 8)) (.int 1)))", "descr": ".int 0 -> .int 1 in: .ite (.not (.cmp .eq (.bin .mod (.name I.bytelength) (.int 8)) (.int 0)))"}]}]