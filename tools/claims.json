{
 "C01": [
  "proved",
  "Every pair of an integer write method and its read method (list intPairs), and write_boolean/read_boolean."
 ],
 "C02": [
  "proved",
  ""
 ],
 "C03": [
  "proved",
  ""
 ],
 "C04": [
  "proved",
  "Values are exact integers in units of 2^-1074; nearest with ties to even against every finite binary32."
 ],
 "C05": [
  "proved",
  ""
 ],
 "C06": [
  "proved",
  ""
 ],
 "C07": [
  "partial",
  "The code violates the full statement (def C07_uint64_round_trips): write_uint64/read_uint64 return a negative number from 2^63 on (C07_uint64_violated); the partial theorem covers the lower half and the exact wrong value above. write_char8/read_char8 never agree (C07_char8_violated)."
 ],
 "C08": [
  "proved",
  "All 166 classes of the catalogue (Spec/Catalog.lean); Decodable restricts IFFData, IFFDataSpecification, RecordSpecification, ResupplyReceivedPdu, SeesPdu, DirectedEnergyFirePdu and EntityDamageStatusPdu to the objects whose lists parse can read. TransmitterPdu is C26, the standard variable records are C27, IntercomControlPdu and LinearObjectStatePdu are C23."
 ],
 "C09": [
  "proved",
  "All classes of the catalogue."
 ],
 "C10": [
  "proved",
  "All classes of the catalogue. The records with free-length data (UnknownRadio, UnknownAntennaPattern, UnknownStandardVariableRecord) are outside it: they use read_bytes, which does short reads (C06)."
 ],
 "C11": [
  "proved",
  "All classes of the catalogue; lossless and Live name the classes that drop padding bits or cannot re-serialize."
 ],
 "C12": [
  "proved",
  "All classes of the catalogue."
 ],
 "C13": [
  "proved",
  "All classes of the catalogue."
 ],
 "C14": [
  "proved",
  "All 68 concrete PDU classes: the twelve header bytes at their offsets hold the header attributes, as the attributes are at the time of the call (the length attribute is not computed)."
 ],
 "C15": [
  "proved",
  "Every count field of every class of the catalogue, and the second count of AggregateStatePdu."
 ],
 "C16": [
  "proved",
  "All classes of the catalogue."
 ],
 "C17": [
  "proved",
  "All classes of the catalogue."
 ],
 "C18": [
  "proved",
  "All classes of the catalogue."
 ],
 "C19": [
  "proved",
  "Every byte string and every type byte."
 ],
 "C20": [
  "proved",
  "createPdu/getPdu start from the beginning of the bytes whatever they held before."
 ],
 "C21": [
  "proved",
  "Holds for the registered classes. Classes the table does not register under their own type: ResupplyOfferPdu, FastEntityStatePdu, StartResumeReliablePdu, DirectedEnergyFirePdu, SeesPdu."
 ],
 "C22": [
  "partial",
  "Violated by the code: entry 6 names CollisionElasticPdu (type 66) and entry 41 names PointObjectStatePdu (type 43); C22_exceptions shows that these two are the only ones. FastEntityStatePdu carries type 1, the type of EntityStatePdu, so uniqueness is proved for the other classes."
 ],
 "C23": [
  "proved",
  "The parse methods that call the undefined null() decode exactly the messages whose announced counts are zero."
 ],
 "C24": [
  "proved",
  "All declarations bitfield() accepts, all values, also negative and out of range. The layout ctypes gives a big-endian structure is part of the trusted reading (DESIGN.md)."
 ],
 "C25": [
  "proved",
  "All field lists, including fields of another type and widths that are no int."
 ],
 "C26": [
  "partial",
  "Round trip, exact consumption and truncation are proved for decodable transmitters (frequency below 2^63, known antenna pattern, no variable records). The code violates the full statement: separate theorems prove that larger frequencies, unknown antenna pattern kinds, any record, and empty modulation parameters do not come back."
 ],
 "C27": [
  "partial",
  "The code violates the statement: the reader takes the first payload bytes as padding, so no standard-variable record is read back as written. The negation is proved for every known record class; the reader is proved correct on the conforming layout."
 ],
 "C28": [
  "proved",
  "Dispatch by record type of the standard-variable reader, for every type number."
 ],
 "C29": [
  "proved",
  "setString, charactersString (with a strict UTF-8 decoder) and the twelve wire bytes."
 ],
 "C30": [
  "proved",
  "Alignment for whole-byte lengths; for every other length C30_misaligned proves it fails."
 ],
 "C31": [
  "proved",
  ""
 ],
 "C32": [
  "proved",
  "over the reals; rotation matrix = Rz Ry Rx, orthogonal, det 1; skew matrix acts as the cross product"
 ],
 "C33": [
  "proved",
  "all nine models"
 ],
 "C34": [
  "proved",
  "fixed-orientation models in full; positions of the rotating world-frame models too"
 ],
 "C35": [
  "proved",
  "four consistency laws"
 ],
 "C36": [
  "proved",
  "derivative of the attitude at dt = 0 is the given body angular velocity, uniqueness, gimbal-lock branch"
 ],
 "C37": [
  "proved",
  "for every origin for which ecef2lla returns; inverse as an equivalence, same failures otherwise"
 ],
 "C38": [
  "proved",
  "On the ellipsoid, along the normal, periodic, poles and equator; every point at least 50 km from the centre has coordinates, unique off the axis, and the altitude is the distance from the ellipsoid."
 ],
 "C39": [
  "partial",
  "Longitude exact, poles, centre, fixed point both ways, convergence and accuracy proved; \"raises only at the centre\" is false (C39_raises_far) and C39_returns_partial covers points at least 638 km from the centre and at most 76500 km from the equatorial plane; C39_stops_early shows the accuracy does not follow the tolerance."
 ],
 "C40": [
  "proved",
  ""
 ],
 "C41": [
  "proved",
  "both conversions describe the same attitude relative to the local frame; round trips under exact position recovery"
 ],
 "C42": [
  "proved",
  "zone number and band letter, with the two deviations (zone 61 at 180 degrees, band X not extended)"
 ],
 "C43": [
  "proved",
  ""
 ],
 "C44": [
  "proved",
  ""
 ],
 "C45": [
  "proved",
  "All classes of the catalogue: order, width, signedness and content of each field."
 ],
 "C46": [
  "proved",
  ""
 ],
 "C47": [
  "proved",
  "51 PDU constructors. Canon: float attributes sent as binary32 are binary32 values; unregistered classes go through parse of the class. TransmitterPdu is C26; DirectedEnergyFirePdu, DataQueryPdu: C49."
 ],
 "C48": [
  "proved",
  "104 record constructors; those that lose arguments or cannot be sent are C49."
 ],
 "C49": [
  "proved",
  "A defect list: the negation of C47/C48 for these classes, for all arguments."
 ],
 "C50": [
  "partial",
  "Violated (C50_family_ignored): a protocolFamily passed without a pduType is ignored, and a pduType passed without a protocolFamily replaces the family of the class by None, which cannot be sent (C50_type_alone_unsendable). C50_header_sent_partial states exactly what is sent in every case."
 ],
 "C51": [
  "partial",
  "Violated (C51_exceptions): RecordQueryReliablePdu carries 63 instead of 65; four more classes are not decoded under their number; C51_decoded_partial covers all others."
 ],
 "C52": [
  "proved",
  "Derivatives of lla2ecef along latitude, longitude and altitude."
 ],
 "C53": [
  "proved",
  "All origins; parts that are not numbers are not modelled."
 ],
 "C54": [
  "proved",
  "Argument in radians, unlike the rest of the API."
 ],
 "C55": [
  "proved",
  "Meridian length, conformality and scale factor with explicit error bounds; over the reals."
 ],
 "C56": [
  "proved",
  "Both directions for all 256 type bytes; the witnesses of the 'some message' direction are evaluated by the kernel."
 ],
 "C57": [
  "proved",
  "Over the catalogue of 166 classes and all classes of the factory; the two exceptions are refuted by a witness and bounded (C57_not_all, C57_growth)."
 ],
 "C58": [
  "partial",
  "Proved for all common, radio, bit-field and warfare part records and for the two lengths of the Transmitter PDU; violated by every standard variable record (C58_records_never), whose excess C58_records_partial states exactly."
 ],
 "C59": [
  "proved",
  "A raising parse does not leave its object unchanged (C59_unchanged_violated), and C59_reuse fails for classes with lists (C59_reuse_violated). IntercomControlPdu and TransmitterPdu, outside the catalogue, have their own theorems."
 ],
 "C60": [
  "proved",
  ""
 ],
 "C61": [
  "partial",
  "The labels Yaw and Roll of the receiver are exchanged: C61_display_violated is the counterexample, C61_display_partial states what is shown. C61_position is about exact real numbers, as all of the geometry."
 ],
 "C62": [
  "proved",
  "Rounding errors, bit-for-bit agreement, monotonicity and accumulated error for positions computed in doubles; accuracy of dt ** 2 is a hypothesis on the platform."
 ],
 "C63": [
  "proved",
  "End to end: serialize, createPdu, drm_rvw in doubles; accuracy of dt ** 2 is a hypothesis on the platform."
 ],
 "C64": [
  "proved",
  "Accuracy of cos, sin, R @ v and dt ** 2 are hypotheses on the platform, met by a reference platform."
 ],
 "C65": [
  "proved",
  "Accuracy of cos, sin and tan is a hypothesis on the platform, met by a reference platform."
 ],
 "C66": [
  "proved",
  "Programs that put one object in two places are excluded by the statement; C66_shared_violated and C66_empty_list_violated show what happens then. All 166 classes of the catalogue and TransmitterPdu and IntercomControlPdu (C66_catalog); constructor calls with arguments are modelled but only those without arguments occur in the programs of the theorem."
 ],
 "C67": [
  "proved",
  "createAll is user code (a receiver that keeps its PDUs); sockets and the file variant of the factory are not part of it."
 ],
 "C68": [
  "proved",
  "C68_serialize on the memory model of C66 for all catalogue classes; conversion proved nearest; struct.error cases for coordinate records and simulation addresses; double rounding shown by a witness"
 ],
 "C69": [
  "proved",
  "Objects given to a constructor must be the program's own (not shared); sharing is shown by witnesses (C66_shared_violated). Ignored parameters are recorded in C69_ignored_violated and C69_ignored_lost_violated."
 ],
 "C70": [
  "proved",
  "sin, cos and x ** 2 are parameters; the accuracy assumed of them is a hypothesis, met by a concrete platform"
 ],
 "C71": [
  "proved",
  "Points at least 1 m from the axis; nearer, the code fails, and C71_near_axis_violated proves where."
 ],
 "C72": [
  "proved",
  "Libraries are parameters with stated accuracy (Numpy.Accurate), met by a reference implementation."
 ],
 "C73": [
  "proved",
  "Libraries are parameters with stated accuracy (Numpy.Accurate), met by a reference implementation."
 ],
 "C74": [
  "proved",
  "in doubles, for every library within Numpy.Accurate; the labels yaw and roll are exchanged on the display (C61_display_violated)"
 ],
 "C75": [
  "proved",
  "sin, cos, tan, x ** 2 and x ** n are parameters; the accuracy assumed of them is a hypothesis, met by a concrete library. The zone is not always that of the exact longitude: two _violated theorems show where."
 ],
 "C76": [
  "proved",
  "The program as it is, its loop for any step and duration, its second part for any start and displacement; the accuracy assumed of the C library is a hypothesis, met by a concrete library. The squares of numpy doubles are taken to be those of Python floats."
 ],
 "C77": [
  "proved",
  "all 166 classes of the catalogue, TransmitterPdu, IntercomControlPdu, the two functions for standard variable records, and the records these functions make; constructors with arguments for all of them that have parameters; __init__ of the header and family classes on any object; setString and charactersString"
 ],
 "C78": [
  "proved",
  "Every function of the two modules, with whole numbers in place of floats for lla2ecef, llarpy2ecef and what they call, and in the lists given to the dead reckoning functions. Trusted are the dump of the syntax trees and the interpreter; the transliteration by hand is not."
 ],
 "C79": [
  "proved",
  "all methods of the streams, the table of C77, the factory for all messages, and the claims about the factory stated of the source alone (Props/IoFactory)"
 ],
 "C80": [
  "proved",
  "for the 166 classes of C77, TransmitterPdu, DirectedEnergyAreaAimpoint and LinearObjectStatePdu; the sizes of the standard variable records are wrong by the amounts stated (C58)"
 ]
}