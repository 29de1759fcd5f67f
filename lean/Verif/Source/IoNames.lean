import Verif.Source.Table

/-!
# Further names in the source

Written by `tools/genio.py` from the Python source.
-/

namespace Dis.Src

namespace I

/-- The name `struct` in /repo/opendis. -/
abbrev struct : Ident := 854
/-- The name `pack` in /repo/opendis. -/
abbrev pack : Ident := 855
/-- The name `unpack` in /repo/opendis. -/
abbrev unpack : Ident := 856
/-- The name `io` in /repo/opendis. -/
abbrev io : Ident := 857
/-- The name `BytesIO` in /repo/opendis. -/
abbrev BytesIO : Ident := 858
/-- The name `open` in /repo/opendis. -/
abbrev «open» : Ident := 859
/-- The name `stream` in /repo/opendis. -/
abbrev stream : Ident := 860
/-- The name `read` in /repo/opendis. -/
abbrev read : Ident := 861
/-- The name `write` in /repo/opendis. -/
abbrev write : Ident := 862
/-- The name `seek` in /repo/opendis. -/
abbrev seek : Ident := 863
/-- The name `keys` in /repo/opendis. -/
abbrev keys : Ident := 864
/-- The name `chr` in /repo/opendis. -/
abbrev chr : Ident := 865
/-- The name `float` in /repo/opendis. -/
abbrev float : Ident := 866
/-- The name `str` in /repo/opendis. -/
abbrev str : Ident := 867
/-- The name `DataInputStream` in /repo/opendis. -/
abbrev DataInputStream : Ident := 868
/-- The name `DataOutputStream` in /repo/opendis. -/
abbrev DataOutputStream : Ident := 869
/-- The name `utf_length` in /repo/opendis. -/
abbrev utf_length : Ident := 870
/-- The name `n` in /repo/opendis. -/
abbrev n : Ident := 871
/-- The name `read_char` in /repo/opendis. -/
abbrev read_char : Ident := 872
/-- The name `char8` in /repo/opendis. -/
abbrev char8 : Ident := 873
/-- The name `float32` in /repo/opendis. -/
abbrev float32 : Ident := 874
/-- The name `float64` in /repo/opendis. -/
abbrev float64 : Ident := 875
/-- The name `int8` in /repo/opendis. -/
abbrev int8 : Ident := 876
/-- The name `int16` in /repo/opendis. -/
abbrev int16 : Ident := 877
/-- The name `int32` in /repo/opendis. -/
abbrev int32 : Ident := 878
/-- The name `int64` in /repo/opendis. -/
abbrev int64 : Ident := 879
/-- The name `uint8` in /repo/opendis. -/
abbrev uint8 : Ident := 880
/-- The name `uint16` in /repo/opendis. -/
abbrev uint16 : Ident := 881
/-- The name `uint32` in /repo/opendis. -/
abbrev uint32 : Ident := 882
/-- The name `uint64` in /repo/opendis. -/
abbrev uint64 : Ident := 883
/-- The name `read_boolean` in /repo/opendis. -/
abbrev read_boolean : Ident := 884
/-- The name `read_utf` in /repo/opendis. -/
abbrev read_utf : Ident := 885
/-- The name `read_char8` in /repo/opendis. -/
abbrev read_char8 : Ident := 886
/-- The name `read_int8` in /repo/opendis. -/
abbrev read_int8 : Ident := 887
/-- The name `read_int16` in /repo/opendis. -/
abbrev read_int16 : Ident := 888
/-- The name `read_int32` in /repo/opendis. -/
abbrev read_int32 : Ident := 889
/-- The name `read_int64` in /repo/opendis. -/
abbrev read_int64 : Ident := 890
/-- The name `boolean` in /repo/opendis. -/
abbrev boolean : Ident := 891
/-- The name `string` in /repo/opendis. -/
abbrev string : Ident := 892
/-- The name `write_boolean` in /repo/opendis. -/
abbrev write_boolean : Ident := 893
/-- The name `write_char` in /repo/opendis. -/
abbrev write_char : Ident := 894
/-- The name `write_utf` in /repo/opendis. -/
abbrev write_utf : Ident := 895
/-- The name `write_char8` in /repo/opendis. -/
abbrev write_char8 : Ident := 896
/-- The name `write_int8` in /repo/opendis. -/
abbrev write_int8 : Ident := 897
/-- The name `write_int16` in /repo/opendis. -/
abbrev write_int16 : Ident := 898
/-- The name `write_int32` in /repo/opendis. -/
abbrev write_int32 : Ident := 899
/-- The name `write_int64` in /repo/opendis. -/
abbrev write_int64 : Ident := 900
/-- The name `enum8` in /repo/opendis. -/
abbrev enum8 : Ident := 901
/-- The name `enum16` in /repo/opendis. -/
abbrev enum16 : Ident := 902
/-- The name `enum32` in /repo/opendis. -/
abbrev enum32 : Ident := 903
/-- The name `struct8` in /repo/opendis. -/
abbrev struct8 : Ident := 904
/-- The name `struct16` in /repo/opendis. -/
abbrev struct16 : Ident := 905
/-- The name `struct32` in /repo/opendis. -/
abbrev struct32 : Ident := 906
/-- The name `char16` in /repo/opendis. -/
abbrev char16 : Ident := 907
/-- The name `bf_enum` in /repo/opendis. -/
abbrev bf_enum : Ident := 908
/-- The name `bf_int` in /repo/opendis. -/
abbrev bf_int : Ident := 909
/-- The name `bf_uint` in /repo/opendis. -/
abbrev bf_uint : Ident := 910
/-- The name `PduTypeDecoders` in /repo/opendis. -/
abbrev PduTypeDecoders : Ident := 911
/-- The name `Decoder` in /repo/opendis. -/
abbrev Decoder : Ident := 912
/-- The name `pdu` in /repo/opendis. -/
abbrev pdu : Ident := 913
/-- The name `memoryStream` in /repo/opendis. -/
abbrev memoryStream : Ident := 914
/-- The name `getPdu` in /repo/opendis. -/
abbrev getPdu : Ident := 915
/-- The name `filePath` in /repo/opendis. -/
abbrev filePath : Ident := 916
/-- The name `f` in /repo/opendis. -/
abbrev f : Ident := 917
/-- The name `createPdu` in /repo/opendis. -/
abbrev createPdu : Ident := 918
/-- The name `createPduFromFilePath` in /repo/opendis. -/
abbrev createPduFromFilePath : Ident := 919

end I

/-- Every name in the streams and the factory that the records do not have, with its number (/repo/opendis). -/
def ioNames : List (String × Ident) :=
  [("struct", I.struct),
   ("pack", I.pack),
   ("unpack", I.unpack),
   ("io", I.io),
   ("BytesIO", I.BytesIO),
   ("open", I.«open»),
   ("stream", I.stream),
   ("read", I.read),
   ("write", I.write),
   ("seek", I.seek),
   ("keys", I.keys),
   ("chr", I.chr),
   ("float", I.float),
   ("str", I.str),
   ("DataInputStream", I.DataInputStream),
   ("DataOutputStream", I.DataOutputStream),
   ("utf_length", I.utf_length),
   ("n", I.n),
   ("read_char", I.read_char),
   ("char8", I.char8),
   ("float32", I.float32),
   ("float64", I.float64),
   ("int8", I.int8),
   ("int16", I.int16),
   ("int32", I.int32),
   ("int64", I.int64),
   ("uint8", I.uint8),
   ("uint16", I.uint16),
   ("uint32", I.uint32),
   ("uint64", I.uint64),
   ("read_boolean", I.read_boolean),
   ("read_utf", I.read_utf),
   ("read_char8", I.read_char8),
   ("read_int8", I.read_int8),
   ("read_int16", I.read_int16),
   ("read_int32", I.read_int32),
   ("read_int64", I.read_int64),
   ("boolean", I.boolean),
   ("string", I.string),
   ("write_boolean", I.write_boolean),
   ("write_char", I.write_char),
   ("write_utf", I.write_utf),
   ("write_char8", I.write_char8),
   ("write_int8", I.write_int8),
   ("write_int16", I.write_int16),
   ("write_int32", I.write_int32),
   ("write_int64", I.write_int64),
   ("enum8", I.enum8),
   ("enum16", I.enum16),
   ("enum32", I.enum32),
   ("struct8", I.struct8),
   ("struct16", I.struct16),
   ("struct32", I.struct32),
   ("char16", I.char16),
   ("bf_enum", I.bf_enum),
   ("bf_int", I.bf_int),
   ("bf_uint", I.bf_uint),
   ("PduTypeDecoders", I.PduTypeDecoders),
   ("Decoder", I.Decoder),
   ("pdu", I.pdu),
   ("memoryStream", I.memoryStream),
   ("getPdu", I.getPdu),
   ("filePath", I.filePath),
   ("f", I.f),
   ("createPdu", I.createPdu),
   ("createPduFromFilePath", I.createPduFromFilePath)]

end Dis.Src
