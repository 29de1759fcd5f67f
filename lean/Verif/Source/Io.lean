import Verif.Py.Io

/-!
# The syntax trees of the streams and of the factory

Written by `tools/genio.py` from the Python source.
-/

namespace Dis.Io

open Src

/-- `DataInputStream.__init__`, /repo/opendis/stream.py:28-29. -/
def DataInputStream.__init__ : Fn where
  params := [I.stream]
  body :=
   [.assign (.attr (.name I.self) I.stream) (.name I.stream)]

/-- `DataInputStream.read_boolean`, /repo/opendis/stream.py:31-32. -/
def DataInputStream.read_boolean : Fn where
  params := []
  body :=
   [.ret (.index (.method (.name I.struct) I.unpack [.str [63], .method (.attr (.name I.self) I.stream) I.read [.int 1]]) (.int 0))]

/-- `DataInputStream.read_byte`, /repo/opendis/stream.py:34-35. -/
def DataInputStream.read_byte : Fn where
  params := []
  body :=
   [.ret (.index (.method (.name I.struct) I.unpack [.str [98], .method (.attr (.name I.self) I.stream) I.read [.int 1]]) (.int 0))]

/-- `DataInputStream.read_unsigned_byte`, /repo/opendis/stream.py:37-38. -/
def DataInputStream.read_unsigned_byte : Fn where
  params := []
  body :=
   [.ret (.index (.method (.name I.struct) I.unpack [.str [66], .method (.attr (.name I.self) I.stream) I.read [.int 1]]) (.int 0))]

/-- `DataInputStream.read_char`, /repo/opendis/stream.py:40-41. -/
def DataInputStream.read_char : Fn where
  params := []
  body :=
   [.ret (.call I.chr [.index (.method (.name I.struct) I.unpack [.str [62, 72], .method (.attr (.name I.self) I.stream) I.read [.int 2]]) (.int 0)])]

/-- `DataInputStream.read_double`, /repo/opendis/stream.py:43-44. -/
def DataInputStream.read_double : Fn where
  params := []
  body :=
   [.ret (.index (.method (.name I.struct) I.unpack [.str [62, 100], .method (.attr (.name I.self) I.stream) I.read [.int 8]]) (.int 0))]

/-- `DataInputStream.read_float`, /repo/opendis/stream.py:46-47. -/
def DataInputStream.read_float : Fn where
  params := []
  body :=
   [.ret (.index (.method (.name I.struct) I.unpack [.str [62, 102], .method (.attr (.name I.self) I.stream) I.read [.int 4]]) (.int 0))]

/-- `DataInputStream.read_short`, /repo/opendis/stream.py:49-50. -/
def DataInputStream.read_short : Fn where
  params := []
  body :=
   [.ret (.index (.method (.name I.struct) I.unpack [.str [62, 104], .method (.attr (.name I.self) I.stream) I.read [.int 2]]) (.int 0))]

/-- `DataInputStream.read_unsigned_short`, /repo/opendis/stream.py:52-53. -/
def DataInputStream.read_unsigned_short : Fn where
  params := []
  body :=
   [.ret (.index (.method (.name I.struct) I.unpack [.str [62, 72], .method (.attr (.name I.self) I.stream) I.read [.int 2]]) (.int 0))]

/-- `DataInputStream.read_long`, /repo/opendis/stream.py:55-56. -/
def DataInputStream.read_long : Fn where
  params := []
  body :=
   [.ret (.index (.method (.name I.struct) I.unpack [.str [62, 113], .method (.attr (.name I.self) I.stream) I.read [.int 8]]) (.int 0))]

/-- `DataInputStream.read_utf`, /repo/opendis/stream.py:58-60. -/
def DataInputStream.read_utf : Fn where
  params := []
  body :=
   [.assign (.name I.utf_length) (.index (.method (.name I.struct) I.unpack [.str [62, 72], .method (.attr (.name I.self) I.stream) I.read [.int 2]]) (.int 0)),
    .ret (.method (.attr (.name I.self) I.stream) I.read [.name I.utf_length])]

/-- `DataInputStream.read_int`, /repo/opendis/stream.py:62-63. -/
def DataInputStream.read_int : Fn where
  params := []
  body :=
   [.ret (.index (.method (.name I.struct) I.unpack [.str [62, 105], .method (.attr (.name I.self) I.stream) I.read [.int 4]]) (.int 0))]

/-- `DataInputStream.read_unsigned_int`, /repo/opendis/stream.py:65-66. -/
def DataInputStream.read_unsigned_int : Fn where
  params := []
  body :=
   [.ret (.index (.method (.name I.struct) I.unpack [.str [62, 73], .method (.attr (.name I.self) I.stream) I.read [.int 4]]) (.int 0))]

/-- `DataInputStream.read_bytes`, /repo/opendis/stream.py:68-70. -/
def DataInputStream.read_bytes : Fn where
  params := [I.n]
  body :=
   [.ret (.method (.attr (.name I.self) I.stream) I.read [.name I.n])]

/-- `DataInputStream.read_char8`, /repo/opendis/stream.py:73-74. -/
def DataInputStream.read_char8 : Fn where
  params := []
  body :=
   [.ret (.call I.char8 [.method (.name I.self) I.read_char []])]

/-- `DataInputStream.read_float32`, /repo/opendis/stream.py:76-77. -/
def DataInputStream.read_float32 : Fn where
  params := []
  body :=
   [.ret (.call I.float32 [.method (.name I.self) I.read_float []])]

/-- `DataInputStream.read_float64`, /repo/opendis/stream.py:79-80. -/
def DataInputStream.read_float64 : Fn where
  params := []
  body :=
   [.ret (.call I.float64 [.method (.name I.self) I.read_double []])]

/-- `DataInputStream.read_int8`, /repo/opendis/stream.py:82-83. -/
def DataInputStream.read_int8 : Fn where
  params := []
  body :=
   [.ret (.call I.int8 [.method (.name I.self) I.read_byte []])]

/-- `DataInputStream.read_int16`, /repo/opendis/stream.py:85-86. -/
def DataInputStream.read_int16 : Fn where
  params := []
  body :=
   [.ret (.call I.int16 [.method (.name I.self) I.read_short []])]

/-- `DataInputStream.read_int32`, /repo/opendis/stream.py:88-89. -/
def DataInputStream.read_int32 : Fn where
  params := []
  body :=
   [.ret (.call I.int32 [.method (.name I.self) I.read_int []])]

/-- `DataInputStream.read_int64`, /repo/opendis/stream.py:91-92. -/
def DataInputStream.read_int64 : Fn where
  params := []
  body :=
   [.ret (.call I.int64 [.method (.name I.self) I.read_long []])]

/-- `DataInputStream.read_uint8`, /repo/opendis/stream.py:94-95. -/
def DataInputStream.read_uint8 : Fn where
  params := []
  body :=
   [.ret (.call I.uint8 [.method (.name I.self) I.read_unsigned_byte []])]

/-- `DataInputStream.read_uint16`, /repo/opendis/stream.py:97-98. -/
def DataInputStream.read_uint16 : Fn where
  params := []
  body :=
   [.ret (.call I.uint16 [.method (.name I.self) I.read_unsigned_short []])]

/-- `DataInputStream.read_uint32`, /repo/opendis/stream.py:100-101. -/
def DataInputStream.read_uint32 : Fn where
  params := []
  body :=
   [.ret (.call I.uint32 [.method (.name I.self) I.read_unsigned_int []])]

/-- `DataInputStream.read_uint64`, /repo/opendis/stream.py:103-104. -/
def DataInputStream.read_uint64 : Fn where
  params := []
  body :=
   [.ret (.call I.uint64 [.method (.name I.self) I.read_long []])]

/-- `class DataInputStream`, /repo/opendis/stream.py:27-104. -/
def DataInputStream : List (Ident × Fn) :=
  [(I.__init__, DataInputStream.__init__),
   (I.read_boolean, DataInputStream.read_boolean),
   (I.read_byte, DataInputStream.read_byte),
   (I.read_unsigned_byte, DataInputStream.read_unsigned_byte),
   (I.read_char, DataInputStream.read_char),
   (I.read_double, DataInputStream.read_double),
   (I.read_float, DataInputStream.read_float),
   (I.read_short, DataInputStream.read_short),
   (I.read_unsigned_short, DataInputStream.read_unsigned_short),
   (I.read_long, DataInputStream.read_long),
   (I.read_utf, DataInputStream.read_utf),
   (I.read_int, DataInputStream.read_int),
   (I.read_unsigned_int, DataInputStream.read_unsigned_int),
   (I.read_bytes, DataInputStream.read_bytes),
   (I.read_char8, DataInputStream.read_char8),
   (I.read_float32, DataInputStream.read_float32),
   (I.read_float64, DataInputStream.read_float64),
   (I.read_int8, DataInputStream.read_int8),
   (I.read_int16, DataInputStream.read_int16),
   (I.read_int32, DataInputStream.read_int32),
   (I.read_int64, DataInputStream.read_int64),
   (I.read_uint8, DataInputStream.read_uint8),
   (I.read_uint16, DataInputStream.read_uint16),
   (I.read_uint32, DataInputStream.read_uint32),
   (I.read_uint64, DataInputStream.read_uint64)]

/-- `DataOutputStream.__init__`, /repo/opendis/stream.py:108-109. -/
def DataOutputStream.__init__ : Fn where
  params := [I.stream]
  body :=
   [.assign (.attr (.name I.self) I.stream) (.name I.stream)]

/-- `DataOutputStream.write_boolean`, /repo/opendis/stream.py:111-112. -/
def DataOutputStream.write_boolean : Fn where
  params := [I.boolean]
  body :=
   [.expr (.method (.attr (.name I.self) I.stream) I.write [.method (.name I.struct) I.pack [.str [63], .name I.boolean]])]

/-- `DataOutputStream.write_byte`, /repo/opendis/stream.py:114-115. -/
def DataOutputStream.write_byte : Fn where
  params := [I.val]
  body :=
   [.expr (.method (.attr (.name I.self) I.stream) I.write [.method (.name I.struct) I.pack [.str [98], .name I.val]])]

/-- `DataOutputStream.write_unsigned_byte`, /repo/opendis/stream.py:117-118. -/
def DataOutputStream.write_unsigned_byte : Fn where
  params := [I.val]
  body :=
   [.expr (.method (.attr (.name I.self) I.stream) I.write [.method (.name I.struct) I.pack [.str [66], .name I.val]])]

/-- `DataOutputStream.write_char`, /repo/opendis/stream.py:120-121. -/
def DataOutputStream.write_char : Fn where
  params := [I.val]
  body :=
   [.expr (.method (.attr (.name I.self) I.stream) I.write [.method (.name I.struct) I.pack [.str [62, 72], .call I.ord [.name I.val]]])]

/-- `DataOutputStream.write_double`, /repo/opendis/stream.py:123-124. -/
def DataOutputStream.write_double : Fn where
  params := [I.val]
  body :=
   [.expr (.method (.attr (.name I.self) I.stream) I.write [.method (.name I.struct) I.pack [.str [62, 100], .name I.val]])]

/-- `DataOutputStream.write_float`, /repo/opendis/stream.py:126-127. -/
def DataOutputStream.write_float : Fn where
  params := [I.val]
  body :=
   [.expr (.method (.attr (.name I.self) I.stream) I.write [.method (.name I.struct) I.pack [.str [62, 102], .name I.val]])]

/-- `DataOutputStream.write_short`, /repo/opendis/stream.py:129-130. -/
def DataOutputStream.write_short : Fn where
  params := [I.val]
  body :=
   [.expr (.method (.attr (.name I.self) I.stream) I.write [.method (.name I.struct) I.pack [.str [62, 104], .name I.val]])]

/-- `DataOutputStream.write_unsigned_short`, /repo/opendis/stream.py:132-133. -/
def DataOutputStream.write_unsigned_short : Fn where
  params := [I.val]
  body :=
   [.expr (.method (.attr (.name I.self) I.stream) I.write [.method (.name I.struct) I.pack [.str [62, 72], .name I.val]])]

/-- `DataOutputStream.write_long`, /repo/opendis/stream.py:135-136. -/
def DataOutputStream.write_long : Fn where
  params := [I.val]
  body :=
   [.expr (.method (.attr (.name I.self) I.stream) I.write [.method (.name I.struct) I.pack [.str [62, 113], .name I.val]])]

/-- `DataOutputStream.write_utf`, /repo/opendis/stream.py:138-140. -/
def DataOutputStream.write_utf : Fn where
  params := [I.string]
  body :=
   [.expr (.method (.attr (.name I.self) I.stream) I.write [.method (.name I.struct) I.pack [.str [62, 72], .call I.len [.name I.string]]]),
    .expr (.method (.attr (.name I.self) I.stream) I.write [.name I.string])]

/-- `DataOutputStream.write_int`, /repo/opendis/stream.py:142-143. -/
def DataOutputStream.write_int : Fn where
  params := [I.val]
  body :=
   [.expr (.method (.attr (.name I.self) I.stream) I.write [.method (.name I.struct) I.pack [.str [62, 105], .name I.val]])]

/-- `DataOutputStream.write_unsigned_int`, /repo/opendis/stream.py:145-146. -/
def DataOutputStream.write_unsigned_int : Fn where
  params := [I.val]
  body :=
   [.expr (.method (.attr (.name I.self) I.stream) I.write [.method (.name I.struct) I.pack [.str [62, 73], .name I.val]])]

/-- `DataOutputStream.write_bytes`, /repo/opendis/stream.py:148-150. -/
def DataOutputStream.write_bytes : Fn where
  params := [I.val]
  body :=
   [.expr (.method (.attr (.name I.self) I.stream) I.write [.name I.val])]

/-- `DataOutputStream.write_char8`, /repo/opendis/stream.py:153-154. -/
def DataOutputStream.write_char8 : Fn where
  params := [I.val]
  body :=
   [.expr (.method (.name I.self) I.write_byte [.call I.ord [.name I.val]])]

/-- `DataOutputStream.write_float32`, /repo/opendis/stream.py:156-157. -/
def DataOutputStream.write_float32 : Fn where
  params := [I.val]
  body :=
   [.expr (.method (.name I.self) I.write_float [.name I.val])]

/-- `DataOutputStream.write_float64`, /repo/opendis/stream.py:159-160. -/
def DataOutputStream.write_float64 : Fn where
  params := [I.val]
  body :=
   [.expr (.method (.name I.self) I.write_double [.name I.val])]

/-- `DataOutputStream.write_int8`, /repo/opendis/stream.py:162-163. -/
def DataOutputStream.write_int8 : Fn where
  params := [I.val]
  body :=
   [.expr (.method (.name I.self) I.write_byte [.name I.val])]

/-- `DataOutputStream.write_int16`, /repo/opendis/stream.py:165-166. -/
def DataOutputStream.write_int16 : Fn where
  params := [I.val]
  body :=
   [.expr (.method (.name I.self) I.write_short [.name I.val])]

/-- `DataOutputStream.write_int32`, /repo/opendis/stream.py:168-169. -/
def DataOutputStream.write_int32 : Fn where
  params := [I.val]
  body :=
   [.expr (.method (.name I.self) I.write_int [.name I.val])]

/-- `DataOutputStream.write_int64`, /repo/opendis/stream.py:171-172. -/
def DataOutputStream.write_int64 : Fn where
  params := [I.val]
  body :=
   [.expr (.method (.name I.self) I.write_long [.name I.val])]

/-- `DataOutputStream.write_uint8`, /repo/opendis/stream.py:174-175. -/
def DataOutputStream.write_uint8 : Fn where
  params := [I.val]
  body :=
   [.expr (.method (.name I.self) I.write_unsigned_byte [.name I.val])]

/-- `DataOutputStream.write_uint16`, /repo/opendis/stream.py:177-178. -/
def DataOutputStream.write_uint16 : Fn where
  params := [I.val]
  body :=
   [.expr (.method (.name I.self) I.write_unsigned_short [.name I.val])]

/-- `DataOutputStream.write_uint32`, /repo/opendis/stream.py:180-181. -/
def DataOutputStream.write_uint32 : Fn where
  params := [I.val]
  body :=
   [.expr (.method (.name I.self) I.write_unsigned_int [.name I.val])]

/-- `DataOutputStream.write_uint64`, /repo/opendis/stream.py:183-184. -/
def DataOutputStream.write_uint64 : Fn where
  params := [I.val]
  body :=
   [.expr (.method (.attr (.name I.self) I.stream) I.write [.method (.name I.struct) I.pack [.str [62, 81], .name I.val]])]

/-- `class DataOutputStream`, /repo/opendis/stream.py:107-184. -/
def DataOutputStream : List (Ident × Fn) :=
  [(I.__init__, DataOutputStream.__init__),
   (I.write_boolean, DataOutputStream.write_boolean),
   (I.write_byte, DataOutputStream.write_byte),
   (I.write_unsigned_byte, DataOutputStream.write_unsigned_byte),
   (I.write_char, DataOutputStream.write_char),
   (I.write_double, DataOutputStream.write_double),
   (I.write_float, DataOutputStream.write_float),
   (I.write_short, DataOutputStream.write_short),
   (I.write_unsigned_short, DataOutputStream.write_unsigned_short),
   (I.write_long, DataOutputStream.write_long),
   (I.write_utf, DataOutputStream.write_utf),
   (I.write_int, DataOutputStream.write_int),
   (I.write_unsigned_int, DataOutputStream.write_unsigned_int),
   (I.write_bytes, DataOutputStream.write_bytes),
   (I.write_char8, DataOutputStream.write_char8),
   (I.write_float32, DataOutputStream.write_float32),
   (I.write_float64, DataOutputStream.write_float64),
   (I.write_int8, DataOutputStream.write_int8),
   (I.write_int16, DataOutputStream.write_int16),
   (I.write_int32, DataOutputStream.write_int32),
   (I.write_int64, DataOutputStream.write_int64),
   (I.write_uint8, DataOutputStream.write_uint8),
   (I.write_uint16, DataOutputStream.write_uint16),
   (I.write_uint32, DataOutputStream.write_uint32),
   (I.write_uint64, DataOutputStream.write_uint64)]

/-- The names of types, /repo/opendis/types.py:12-34. -/
def types : List (Ident × Ident) :=
  [(I.enum8, I.int),
   (I.enum16, I.int),
   (I.enum32, I.int),
   (I.int8, I.int),
   (I.int16, I.int),
   (I.int32, I.int),
   (I.int64, I.int),
   (I.uint8, I.int),
   (I.uint16, I.int),
   (I.uint32, I.int),
   (I.uint64, I.int),
   (I.float32, I.float),
   (I.float64, I.float),
   (I.struct8, I.int),
   (I.struct16, I.int),
   (I.struct32, I.int),
   (I.char8, I.str),
   (I.char16, I.str),
   (I.bf_enum, I.int),
   (I.bf_int, I.int),
   (I.bf_uint, I.int)]

/-- `PduTypeDecoders`, /repo/opendis/PduFactory.py:11-64. -/
def PduTypeDecoders : Expr :=
  .dict
   [.int 1, .int 2, .int 3, .int 4,
    .int 5, .int 6, .int 7, .int 9,
    .int 10, .int 11, .int 12, .int 13,
    .int 14, .int 15, .int 16, .int 17,
    .int 18, .int 19, .int 20, .int 21,
    .int 22, .int 23, .int 24, .int 25,
    .int 26, .int 27, .int 29, .int 31,
    .int 32, .int 33, .int 36, .int 37,
    .int 40, .int 41, .int 43, .int 44,
    .int 45, .int 51, .int 52, .int 54,
    .int 55, .int 56, .int 57, .int 58,
    .int 59, .int 60, .int 61, .int 62,
    .int 63, .int 66, .int 67, .int 69]
   [.name I.EntityStatePdu, .name I.FirePdu, .name I.DetonationPdu, .name I.CollisionPdu,
    .name I.ServiceRequestPdu, .name I.CollisionElasticPdu, .name I.ResupplyReceivedPdu, .name I.RepairCompletePdu,
    .name I.RepairResponsePdu, .name I.CreateEntityPdu, .name I.RemoveEntityPdu, .name I.StartResumePdu,
    .name I.StopFreezePdu, .name I.AcknowledgePdu, .name I.ActionRequestPdu, .name I.ActionResponsePdu,
    .name I.DataQueryPdu, .name I.SetDataPdu, .name I.DataPdu, .name I.EventReportPdu,
    .name I.CommentPdu, .name I.ElectromagneticEmissionsPdu, .name I.DesignatorPdu, .name I.TransmitterPdu,
    .name I.SignalPdu, .name I.ReceiverPdu, .name I.UaPdu, .name I.IntercomSignalPdu,
    .name I.IntercomControlPdu, .name I.AggregateStatePdu, .name I.IsPartOfPdu, .name I.MinefieldStatePdu,
    .name I.MinefieldResponseNackPdu, .name I.PointObjectStatePdu, .name I.PointObjectStatePdu, .name I.LinearObjectStatePdu,
    .name I.ArealObjectStatePdu, .name I.CreateEntityReliablePdu, .name I.RemoveEntityReliablePdu, .name I.StopFreezeReliablePdu,
    .name I.AcknowledgeReliablePdu, .name I.ActionRequestReliablePdu, .name I.ActionResponseReliablePdu, .name I.DataQueryReliablePdu,
    .name I.SetDataReliablePdu, .name I.DataReliablePdu, .name I.EventReportReliablePdu, .name I.CommentReliablePdu,
    .name I.RecordQueryReliablePdu, .name I.CollisionElasticPdu, .name I.EntityStateUpdatePdu, .name I.EntityDamageStatusPdu]

/-- `getPdu`, /repo/opendis/PduFactory.py:67-81. -/
def getPdu : Fn where
  params := [I.inputStream]
  body :=
   [.expr (.method (.attr (.name I.inputStream) I.stream) I.seek [.int 2, .int 0]),
    .assign (.name I.pduType) (.method (.name I.inputStream) I.read_byte []),
    .expr (.method (.attr (.name I.inputStream) I.stream) I.seek [.int 0, .int 0]),
    .ite (.isIn (.name I.pduType) (.method (.name I.PduTypeDecoders) I.keys []))
      [.assign (.name I.Decoder) (.index (.name I.PduTypeDecoders) (.name I.pduType)),
       .assign (.name I.pdu) (.call I.Decoder []),
       .expr (.method (.name I.pdu) I.parse [.name I.inputStream]),
       .ret (.name I.pdu)]
      [],
    .ret .none]

/-- `createPdu`, /repo/opendis/PduFactory.py:84-92. -/
def createPdu : Fn where
  params := [I.data]
  body :=
   [.assign (.name I.memoryStream) (.method (.name I.io) I.BytesIO [.name I.data]),
    .assign (.name I.inputStream) (.call I.DataInputStream [.name I.memoryStream]),
    .ret (.call I.getPdu [.name I.inputStream])]

/-- `createPduFromFilePath`, /repo/opendis/PduFactory.py:95-100. -/
def createPduFromFilePath : Fn where
  params := [I.filePath]
  body :=
   [.withAs (.method (.name I.io) I.«open» [.name I.filePath, .str [114, 98]]) I.f
      [.assign (.name I.inputStream) (.call I.DataInputStream [.name I.f]),
       .assign (.name I.pdu) (.call I.getPdu [.name I.inputStream])],
    .ret (.name I.pdu)]

/-- The three modules (/repo/opendis/stream.py, /repo/opendis/types.py, /repo/opendis/PduFactory.py). -/
def modules : Modules where
  classes := [(I.DataInputStream, DataInputStream), (I.DataOutputStream, DataOutputStream)]
  types := types
  functions := [(I.getPdu, getPdu), (I.createPdu, createPdu), (I.createPduFromFilePath, createPduFromFilePath)]
  constants := [(I.PduTypeDecoders, PduTypeDecoders)]

end Dis.Io
