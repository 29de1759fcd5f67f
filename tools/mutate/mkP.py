import json
exec(open('/tmp/mut/mkS.py').read().split("S='Verif/Stream.lean'")[0])
def ed(file,within,old,new,count=1): return dict(file=file,within=within,old=old,new=new,count=count)
P=lambda n:f'Verif/Model/Pdus{n}.lean'
R=lambda n:f'Verif/Model/Records{n}.lean'
C='Verif/Model/Common.lean'
mm('P01',[ed(P(1),'PduSuperclass.serialize','  write_unsigned_byte self.pduType\n  write_unsigned_byte self.protocolFamily','  write_unsigned_byte self.protocolFamily\n  write_unsigned_byte self.pduType'),ed(P(1),'PduSuperclass.parse','  let pduType ← read_unsigned_byte\n  let protocolFamily ← read_unsigned_byte','  let protocolFamily ← read_unsigned_byte\n  let pduType ← read_unsigned_byte')],'PduSuperclass.serialize/parse','type and family swapped in both','header layout',['C14','C45'])
mm('P02',[ed(P(1),'PduSuperclass.serialize','write_unsigned_short (self.length : Int)','write_unsigned_short ((self.length + 1 : Int))')],'PduSuperclass.serialize','length + 1 written','length is written as stored',['C08','C14'])
mm('P03',[ed(C,'WorldCoordinates.serialize','  write_float64 self.y\n  write_float64 self.z','  write_float64 self.z\n  write_float64 self.y'),ed(C,'WorldCoordinates.parse','  let y ← read_float64\n  let z ← read_float64','  let z ← read_float64\n  let y ← read_float64')],'WorldCoordinates.serialize/parse','y and z swapped in both','wire layout',['C45'])
mm('P04',[ed(C,'EulerAngles.serialize','write_float32','write_float64',3),ed(C,'EulerAngles.parse','read_float32','read_float64',3)],'EulerAngles.serialize/parse','double precision in both','EulerAngles is 12 bytes of single precision',['C13','C45'])
mm('P05',[ed(P(3),'EntityStatePdu.serialize','write_unsigned_byte (self.variableParameters.length : Int)','write_unsigned_byte ((self.variableParameters.length + 1 : Int))')],'EntityStatePdu.serialize','count one too high','count fields tell the truth',['C15','C08'])
mm('P06',[ed(P(3),'EntityStatePdu.parse','R.times numberOfVariableParameters.toNat','R.times (numberOfVariableParameters - 1).toNat')],'EntityStatePdu.parse','reads one parameter too few','round trip',['C08'])
mm('P07',[ed(P(3),'EntityStatePdu.parse','alternativeEntityType := alternativeEntityType','alternativeEntityType := entityType')],'EntityStatePdu.parse','alternativeEntityType assigned from entityType','round trip',['C08'])
mm('P08',[ed(P(5),'FirePdu.serialize','  Vector3Float.serialize self.velocity\n  write_float self.range','  write_float self.range\n  Vector3Float.serialize self.velocity'),ed(P(5),'FirePdu.parse','  let velocity ← Vector3Float.parse self.velocity\n  let range ← read_float','  let range ← read_float\n  let velocity ← Vector3Float.parse self.velocity')],'FirePdu.serialize/parse','velocity and range swapped in both','wire layout of FirePdu',['C45'])
mm('P09',[ed(P(5),'SignalPdu.serialize','(self.data.length : Int) * 8','(self.data.length : Int)'),ed(P(5),'SignalPdu.parse','(dataLength / 8).toNat','dataLength.toNat')],'SignalPdu.serialize/parse','length in bytes in both','data length is in bits',['C31'])
mm('P10',[ed(P(5),'SignalPdu.parse','data := self.data ++ data','data := data')],'SignalPdu.parse','replaces instead of appending','parsing into a used object appends',['C18'])
mm('P11',[ed(R(3),'VariableDatum.datumPaddingSizeInBits','64 - self.variableDatumLength % 64','self.variableDatumLength % 64')],'VariableDatum.datumPaddingSizeInBits','padding is the remainder','multiple of 8 bytes',['C30'])
mm('P12',[ed(R(3),'VariableDatum.serialize','fun _ => write_unsigned_byte 0','fun _ => write_unsigned_byte 255')],'VariableDatum.serialize','padding bytes 255','padding is zero',['C30','C45'])
mm('P13',[ed(R(3),'VariableDatum.datumPaddingSizeInBits','64','32',3)],'VariableDatum.datumPaddingSizeInBits','pads to 4 bytes','multiple of 8 bytes',['C30'])
mm('P14',[ed(R(3),'DatumSpecification.serialize','  write_unsigned_int (self.fixedDatumRecords.length : Int)\n  write_unsigned_int (self.variableDatumRecords.length : Int)','  write_unsigned_int (self.variableDatumRecords.length : Int)\n  write_unsigned_int (self.fixedDatumRecords.length : Int)')],'DatumSpecification.serialize','counts swapped','counts tell the truth',['C15','C08'])
mm('P15',[ed(R(5),'EmissionSystemRecord.serialize','write_unsigned_short 0','write_unsigned_short 1')],'EmissionSystemRecord.serialize','filler is 1','filler is zero',['C45'])
mm('P16',[ed(P(1),'CollisionPdu.init','issuingEntityID.getD','collidingEntityID.getD')],'CollisionPdu.init','issuingEntityID taken from the wrong argument','constructor stores its arguments',[])
mm('P17',[ed(P(1),'EntityStateUpdatePdu','pduType := 67','pduType := 68')],'EntityStateUpdatePdu','pduType 68','type number of a fresh object',['C21','C22'])
mm('P18',[ed(P(1),'LogisticsFamilyPdu','protocolFamily := 3','protocolFamily := 4')],'LogisticsFamilyPdu','family number 4','family number of a fresh object',[])
mm('P19',[ed(R(1),'EntityType.serialize','write_unsigned_short self.country','write_short self.country'),ed(R(1),'EntityType.parse','country ← read_unsigned_short','country ← read_short')],'EntityType.serialize/parse','country signed in both','country is unsigned',['C12','C45'])
mm('P20',[ed(P(4),'MinefieldStatePdu.serialize','  W.forEach self.perimeterPoints Vector2Float.serialize\n  W.forEach self.mineTypes EntityType.serialize','  W.forEach self.mineTypes EntityType.serialize\n  W.forEach self.perimeterPoints Vector2Float.serialize'),ed(P(4),'MinefieldStatePdu.parse','  let perimeterPoints ← R.times numberOfPerimeterPoints.toNat (Vector2Float.parse Vector2Float.init)\n  let mineTypes ← R.times numberOfMineTypes.toNat (EntityType.parse EntityType.init)','  let mineTypes ← R.times numberOfMineTypes.toNat (EntityType.parse EntityType.init)\n  let perimeterPoints ← R.times numberOfPerimeterPoints.toNat (Vector2Float.parse Vector2Float.init)')],'MinefieldStatePdu.serialize/parse','lists swapped in both','wire layout',['C45'])
mm('P21',[ed(P(4),'FastEntityStatePdu.serialize','write_byte (self.variableParameters.length : Int)','write_unsigned_byte (self.variableParameters.length : Int)')],'FastEntityStatePdu.serialize','count unsigned','count written as signed byte',['C15','C45'])
mm('P22',[ed(R(1),'IFFData.serialize','(self.iffData.length : Int)','(self.iffData.length + 6 : Int)')],'IFFData.serialize','length includes the six header bytes (repairs the defect)','IFFData loses six bytes (documented defect)',[])
mm('P23',[ed(P(4),'DetonationPdu.serialize','  Vector3Float.serialize self.locationInEntityCoordinates\n','')],'DetonationPdu.serialize','locationInEntityCoordinates not written','round trip, layout',['C08','C45'])
mm('P24',[ed(P(4),'DetonationPdu.serialize','  Vector3Float.serialize self.locationInEntityCoordinates\n',''),ed(P(4),'DetonationPdu.parse','  let locationInEntityCoordinates ← Vector3Float.parse self.locationInEntityCoordinates\n',''),ed(P(4),'DetonationPdu.parse','locationInEntityCoordinates := locationInEntityCoordinates','locationInEntityCoordinates := self.locationInEntityCoordinates')],'DetonationPdu.serialize/parse','locationInEntityCoordinates left out of both','layout',['C45','C13'])
mm('P25',[ed(P(3),'StartResumePdu.serialize','  ClockTime.serialize self.realWorldTime\n  ClockTime.serialize self.simulationTime','  ClockTime.serialize self.simulationTime\n  ClockTime.serialize self.realWorldTime'),ed(P(3),'StartResumePdu.parse','  let realWorldTime ← ClockTime.parse self.realWorldTime\n  let simulationTime ← ClockTime.parse self.simulationTime','  let simulationTime ← ClockTime.parse self.simulationTime\n  let realWorldTime ← ClockTime.parse self.realWorldTime')],'StartResumePdu.serialize/parse','the two times swapped in both','layout',['C45'])
mm('P26',[ed(P(5),'IsPartOfPdu.parse','Relationship.parse self.relationship','Relationship.parse {}')],'IsPartOfPdu.parse','parses into a fresh Relationship','off-wire attributes of contained records are kept',[])
mm('P27',[ed(R(2),'EntityMarking.serialize','W.forRange 0 11','W.forRange 0 10'),ed(R(2),'EntityMarking.parse','R.times 11','R.times 10')],'EntityMarking.serialize/parse','ten characters in both','marking has eleven characters',['C13','C45'])
mm('P28',[ed(P(1),'Pdu.parse','padding := padding','padding := 0')],'Pdu.parse','padding forced to zero','round trip of the padding byte',['C08','C11'])
mm('P29',[ed(P(3),'DesignatorPdu.init','designatorPower := designatorPower','designatorPower := 0')],'DesignatorPdu.init','designatorPower argument ignored','constructor stores its arguments',[])
mm('P30',[ed(R(1),'EntityType.init','(extra : Int := 0)','(extra : Int := 1)')],'EntityType.init','default of extra is 1','default values',[])
json.dump(M,open('/tmp/mut/P.json','w'),ensure_ascii=False,indent=1)
