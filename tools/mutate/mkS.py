import json
M=[]
def m(id,file,within,old,new,claim,expect,definition=None,count=1):
    M.append(dict(id=id,edits=[dict(file=file,within=within,old=old,new=new,count=count)],definition=definition or within,edit=f'{old.strip()} -> {new.strip()}',claim=claim,expect=expect))
def mm(id,edits,definition,edit,claim,expect):
    M.append(dict(id=id,edits=edits,definition=definition,edit=edit,claim=claim,expect=expect))
S='Verif/Stream.lean'; N='Verif/Py/Num.lean'; F='Verif/Py/Float.lean'; B='Verif/Py/Basic.lean'
def ed(file,within,old,new,count=1): return dict(file=file,within=within,old=old,new=new,count=count)
m('S01',S,'read_boolean','(v ≠ 0)','(v = 1)','boolean reads any non-zero byte as true',['C01'])
m('S02',S,'write_boolean','if b then 1 else 0','if b then 255 else 0','write_boolean emits 1 for True',['C03'])
m('S03',S,'read_int','unpackS 4','unpackU 4','int round trip for negative values',['C01'])
mm('S04',[ed(S,'read_int','unpackS 4','unpackU 4'),ed(S,'write_int','packS 4','packU 4')],'read_int, write_int','both use the unsigned format','write_int accepts -2^31..2^31-1',['C01','C02','C03'])
mm('S05',[ed(S,'read_unsigned_short','2 (unpackU 2)','4 (unpackU 4)'),ed(S,'write_unsigned_short','packU 2','packU 4')],'read/write_unsigned_short','both four bytes wide','unsigned_short is two bytes wide',['C03','C13'])
m('S06',S,'write_utf','packU 2 string.length','packU 2 (string.length % 65536 : Nat)','write_utf rejects strings longer than 65535',['C06'])
m('S07',S,'read_utf','R.readRaw utf_length','R.readRaw (utf_length + 1)','read_utf reads exactly the written bytes',['C06'])
m('S08',S,'read_uint64','read_long','R.readFixed 8 (unpackU 8)','large uint64 come back negative (documented defect)',['C07'])
m('S09',S,'write_char8','write_byte val','write_char val','write_char8 writes one byte (documented defect)',['C07'])
mm('S10',[ed(N,'beBytes','v / 256 ^ n % 256','v / 256 ^ (n - n) % 256')],'beBytes','every byte is the lowest digit','bytes are the base-256 digits',['C03'])
mm('S11',[ed(N,'beBytes','UInt8.ofNat (v / 256 ^ n % 256) :: beBytes n v','beBytes n (v / 256) ++ [UInt8.ofNat (v % 256)]'),],'beBytes','equivalent recursion from the other end','(equivalent mutant: only proofs may break)',[])
mm('S12',[ed(N,'beBytes','UInt8.ofNat (v / 256 ^ n % 256) :: beBytes n v','UInt8.ofNat (v % 256) :: beBytes n (v / 256)'),ed(N,'beNat','b.toNat * 256 ^ bs.length + beNat bs','b.toNat + 256 * beNat bs')],'beBytes, beNat','little-endian in both directions','network byte order',['C03'])
m('S13',N,'packU','0 ≤ v ∧ v < (256 ^ n : Nat)','0 ≤ v ∧ v ≤ (256 ^ n : Nat)','values of 256^n are rejected',['C02'])
m('S14',N,'packS','≤ v ∧ v <','< v ∧ v <','the least negative value is accepted',['C01'])
m('S15',N,'packU','if 0 ≤ v ∧ v < (256 ^ n : Nat) then .ok (beBytes n v.toNat) else .error .structError','.ok (beBytes n (v % (256 ^ n : Nat)).toNat)','out-of-range values are rejected',['C02'])
m('S16',N,'unpackU','b.length = n','b.length ≤ n','short reads raise struct.error',['C05'])
m('S17',N,'unpackS','beNat b < 256 ^ n / 2','beNat b ≤ 256 ^ n / 2','two\'s complement',['C01'])
m('S18',F,'rne','q % 2 = 1','q % 2 = 0','ties go to the even neighbour',['C04'])
m('S19',F,'rne','if 2 * r > 2 ^ s ∨ (2 * r = 2 ^ s ∧ q % 2 = 1) then q + 1 else q','q','rounds to nearest instead of truncating',['C04'])
m('S20',F,'narrow','if m < 255 * 2 ^ 23 then .ok (BitVec.ofNat 32 (s * 2 ^ 31 + m))\n    else .error .overflowError','.ok (BitVec.ofNat 32 (s * 2 ^ 31 + min m (255 * 2 ^ 23)))','overflow raises OverflowError',['C04'])
m('S21',F,'widen','k + 874','k + 873','subnormal singles widen exactly',['C04'])
m('S22',F,'narrowMag','29 + (897 - e\')','29 + (896 - e\')','subnormal rounding',['C04'])
m('S23',F,'narrow','s * 2 ^ 31 + 255 * 2 ^ 23 + 2 ^ 22 + f / 2 ^ 29 % 2 ^ 22','s * 2 ^ 31 + 255 * 2 ^ 23','NaN stays NaN',['C04'])
m('S24',F,'widen','F64.mk s 2047 (2 ^ 51 + (f % 2 ^ 22) * 2 ^ 29)','F64.mk s 2047 (f * 2 ^ 29)','NaN payload is quieted',['C04','C08','C11'])
m('S25',B,'R.readRaw','pos := s.pos + got.length','pos := s.pos + n.toNat','position moves by what was read',['C05','C09'])
m('S26',B,'R.readRaw','if n < 0 then rest else','if n < 0 then [] else','a negative count reads everything left',['C27'])
m('S27',B,'W.bind' if False else 'bind','⟨w.out ++ (k a).out, (k a).res⟩','⟨(k a).out ++ w.out, (k a).res⟩','bytes are appended in program order',['C03','C14'])
m('S28',B,'R.times','return x :: xs','return xs ++ [x]','list elements keep their order',['C08','C16'])
m('S29',B,'W.forEach','do body x; W.forEach xs body','do W.forEach xs body; body x','list elements keep their order on the wire',['C45'])
m('S30',B,'R.seek','pos := n','pos := s.pos','getPdu reads from the start of the stream',['C19','C20'])
m('S31',S,'write_bytes','W.emit val','W.emit (val ++ [0])','write_bytes writes the bytes as given',['C06'])
m('S32',S,'write_float64','write_double val','write_float val','double fields are eight bytes wide',['C13'])
m('S33',S,'read_uint16','read_unsigned_short','read_short','uint16 reads are unsigned',['C01'])
json.dump(M,open('/tmp/mut/S.json','w'),ensure_ascii=False,indent=1)
T=[]; M=T
Bf='Verif/Model/Bitfield.lean'; Tx='Verif/Model/Text.lean'; Ra='Verif/Model/Radio.lean'; Sp='Verif/Model/Special.lean'; Fa='Verif/Model/Factory.lean'; Wa='Verif/Model/Warfare.lean'
m('B01',Bf,'packBits','* 2 ^ ws.sum + packBits ws vs.tail','+ 2 ^ w * packBits ws vs.tail','first field in the most significant bits',['C24'])
m('B02',Bf,'packBits','(vs.headD 0 % 2 ^ w).toNat','(vs.headD 0).toNat','values are truncated to the field width',['C24'])
mm('B03',[ed(Bf,'packBits','* 2 ^ ws.sum + packBits ws vs.tail','+ 2 ^ w * packBits ws vs.tail'),ed(Bf,'unpackBits','n / 2 ^ ws.sum % 2 ^ w','n % 2 ^ w'),ed(Bf,'unpackBits',':: unpackBits ws n',':: unpackBits ws (n / 2 ^ w)')],'packBits, unpackBits','first field in the least significant bits in both directions','fields are laid out most significant first',['C24'])
m('B04',Bf,'bitfieldFirstPass','bits ≤ 0 ∨ bits > 32','bits < 0 ∨ bits > 32','zero-width fields are rejected',['C25'])
m('B05',Bf,'bitfield','if bitsize = 0 then .error .valueError\n    else if','if','empty field lists are rejected with ValueError',['C25'])
m('B06',Bf,'bitfieldBaseSize','bitsize ≤ 16 then .ok 2','bitsize ≤ 16 then .ok 4','16-bit structures',['C25'])
m('B07',Bf,'Bitfield.fromBufferCopy','if b.length < ws.sum / 8 then .error .valueError\n  else','if False then .error .valueError\n  else','short bit fields are rejected',['C10','C24'])
m('B08',Bf,'bitfield','if size = bitsize / 8 then .ok ws else .error .assertionError','.ok ws','24-bit totals are rejected',['C25'])
m('B09',Bf,'bitfieldFirstPass','if f.isInteger = false then .error .valueError\n    else ','','non-integer fields are rejected',[])
m('B10',Tx,'EntityMarking.setStringLoop','else 0)','else 32)','short texts are padded with NUL',['C29'])
m('B11',Tx,'EntityMarking.setString','0 11 self','0 10 self','all eleven characters are set',['C29'])
m('B12',Tx,'EntityMarking.charactersString','c ≠ 0','c > 32','only NULs are dropped',['C29'])
m('B13',Tx,'toBytes','v < 256','v < 128','bytes of 128..255 are accepted by bytes()',['C29'])
m('B14',Tx,'utf8Decode','(a.toNat - 0xC0) * 64','(a.toNat - 0xC0) * 32','UTF-8 decoding of two-byte characters',['C29'])
m('B15',Fa,'getPdu','read_byte','read_unsigned_byte','type bytes of 128 and above (equivalent: no such entries)',[])
m('B16',Fa,'getPdu','R.seek 2','R.seek 3','the third byte selects the class',['C19'])
m('B17',Fa,'PduTypeDecoders','(2, .FirePdu)','(2, .DetonationPdu)','type 2 is FirePdu',['C19','C21','C22'])
m('B18',Fa,'PduTypeDecoders','(41, .PointObjectStatePdu)','(41, .ArealObjectStatePdu)','documented wrong entry 41',['C22'])
m('B19',Fa,'getPdu','| none => return none','| none => R.throw .typeError','unknown types give None',['C19'])
m('B20',Fa,'createPdu','⟨data, 0⟩','⟨data, 1⟩','(equivalent: getPdu seeks)',[])
m('B21',Fa,'PduTypeDecoders','  (69, .EntityDamageStatusPdu)]','  (68, .EntityDamageStatusPdu)]','type 69 is EntityDamageStatusPdu',['C19','C21','C22'])
m('B22',Ra,'SpreadSpectrum.parse','record_bitfield.getD 1 0','record_bitfield.getD 2 0','each flag is read from its own bit',['C24','C08'])
m('B23',Ra,'NetId.struct','[10, 2, 2, 2]','[2, 2, 2, 10]','NetId layout',['C24','C25'])
mm('B24',[ed(Ra,'NetId.serialize','[self.netNumber, self.frequencyTable, self.mode, self.padding]','[self.netNumber, self.mode, self.frequencyTable, self.padding]'),ed(Ra,'NetId.parse','frequencyTable := record_bitfield.getD 1 0\n    mode := record_bitfield.getD 2 0','frequencyTable := record_bitfield.getD 2 0\n    mode := record_bitfield.getD 1 0')],'NetId.serialize, NetId.parse','frequencyTable and mode swapped in both','NetId wire layout',['C45'])
m('B25',Ra,'UnknownAntennaPattern.parse','bytelength - 6','bytelength','unknown antenna patterns lose six bytes (documented defect)',['C26'])
m('B26',Ra,'UnknownRadio.parse','read_bytes n','read_bytes (n - 6)','unknown radios keep all bytes',['C26'])
m('B27',Ra,'StandardVariableRecord.parse','bytelength % 8 = 0','True','lengths not divisible by 8 are rejected',['C27'])
m('B28',Ra,'StandardVariableRecord.serialize','write_uint32 marshalledSize','write_uint16 marshalledSize','the length field is 32 bits on the wire (documented defect)',['C27','C45'])
m('B29',Ra,'VariableRecord.parse','n ≥ 0','n > 0','length zero is legal',['C27','C28'])
m('B30',Sp,'TransmitterPdu.parseModulationParameters','modulationType.radioSystem = 6','modulationType.radioSystem = 5','CCTT SINCGARS is radio system 6',['C26'])
m('B31',Sp,'TransmitterPdu.parseModulationParameters','if modulationType.majorModulation = 0 then pure (some .simpleIntercom)\n      else pure (some .generic)','pure (some .generic)','intercom radios come back as SimpleIntercomRadio',['C26'])
m('B32',Sp,'TransmitterPdu.antennaPatternLength','p.marshalledSize','p.marshalledSize + 4','antenna pattern length',['C26','C45'])
mm('B33',[ed(Sp,'TransmitterPdu.serialize','  W.whenSome self.modulationParameters ModulationParametersRecord.serialize\n  W.whenSome self.antennaPattern AntennaPatternRecord.serialize','  W.whenSome self.antennaPattern AntennaPatternRecord.serialize\n  W.whenSome self.modulationParameters ModulationParametersRecord.serialize')],'TransmitterPdu.serialize','antenna pattern before modulation parameters','order of the variable parts',['C26'])
m('B34',Sp,'TransmitterPdu.serialize','write_uint16 self.variableTransmitterParameters.length','write_uint16 0','variable parameter count',['C15','C26'])
m('B35',Sp,'TransmitterPdu.parse','self.variableTransmitterParameters ++ vtps','vtps','parsing into a used object appends',['C18'])
m('B36',Wa,'variableRecordClass','recordType = 4001','recordType = 4002','record type 4001 is the area aimpoint',['C28'])
m('B37',Wa,'SVClass.isSubclass','.directedEnergyDamage, .damageDescription => true','.directedEnergyDamage, .variableTransmitterParameters => true','DirectedEnergyDamage is a DamageDescriptionRecord',['C28'])
m('B38',Wa,'UnknownStandardVariableRecord.serialize','  write_uint32 self.recordType\n  write_uint16 self.marshalledSize\n','','unknown records repeat type and length (documented defect)',['C27'])
m('B39',Wa,'getStandardVariableClass','recordType < 0','recordType ≤ 0','record type 0 is unknown, not an error',['C28'])
m('B40',Wa,'parseStandardVariableRecord','read_uint16','read_uint32','the reader takes a 16-bit length (documented defect)',['C27'])
m('B41',Sp,'IntercomControlPdu.parse','let intercomParameters ← R.throw .typeError','let intercomParameters := IntercomParametersValue.none','type 32 never decodes',['C23'])
m('B42',Sp,'DirectedEnergyFirePdu.serialize','W.using (attr self.commulativeShotTime) write_float32','write_float32 self.cumulativeShotTime','a fresh DirectedEnergyFirePdu cannot be serialized (documented defect)',['C12'])
json.dump(M,open('/tmp/mut/B.json','w'),ensure_ascii=False,indent=1)
