{"id": "C01", "title": "Fixed-width integers survive the stream", "statement": "For every integer write method of DataOutputStream and the read method of DataInputStream documented as its counterpart (byte, unsigned_byte, short, unsigned_short, int, unsigned_int, long, boolean, char and their int8..uint32 aliases), writing any in-range value and reading it back at the place it was written returns exactly that value and advances the read position by exactly the field's width, whatever bytes precede or follow it.", "quantifier": "all in-range integers of every width, all stream prefixes and suffixes", "why_tests_cant": "2^8..2^64 values per method and unboundedly many surrounding streams; tests sample a handful", "anchors": ["opendis/stream.py:DataInputStream", "opendis/stream.py:DataOutputStream"]}
{"id": "C02", "title": "Out-of-range integers are rejected, never truncated", "statement": "An integer write method given a value outside the range of its wire width raises struct.error and adds nothing to the output stream; it never emits a truncated or wrapped value.", "quantifier": "all integers outside the width's range, for every integer write method", "why_tests_cant": "the out-of-range set is infinite", "anchors": ["opendis/stream.py:DataOutputStream.write_byte", "opendis/stream.py:DataOutputStream.write_unsigned_byte", "opendis/stream.py:DataOutputStream.write_unsigned_short", "opendis/stream.py:DataOutputStream.write_unsigned_int", "opendis/stream.py:DataOutputStream.write_long"]}
{"id": "C03", "title": "Network byte order", "statement": "The bytes emitted for an in-range integer are the base-256 digits (two's complement for signed methods) with the most significant first: the value equals the sum of byte_i * 256^(n-1-i), reduced modulo 256^n. A boolean is the byte 0 or 1, and any byte other than 0 is read as True.", "quantifier": "all in-range integers of every width", "why_tests_cant": "needs a statement about all values, not a few golden byte strings", "anchors": ["opendis/stream.py:DataOutputStream"]}
{"id": "C04", "title": "Single-precision fields keep the nearest binary32 value", "statement": "Writing any finite double with write_float and reading it back yields a binary32 value closest to the written one (ties to even); values that already are binary32 come back bit-identical; OverflowError is raised exactly when the rounded value would exceed the largest finite binary32, infinities pass through, and a second trip never changes the value again. write_double/read_double returns the identical bit pattern for every double.", "quantifier": "all 2^64 doubles (as bit patterns)", "why_tests_cant": "2^64 inputs, rounding boundary cases", "anchors": ["opendis/stream.py:DataOutputStream.write_float", "opendis/stream.py:DataInputStream.read_float", "opendis/stream.py:DataOutputStream.write_double", "opendis/stream.py:DataInputStream.read_double"]}
{"id": "C05", "title": "Fixed-size reads never fabricate data", "statement": "A fixed-size read on a stream with fewer remaining bytes than the field's width raises struct.error; it never returns a value.", "quantifier": "all byte streams, all read positions (also beyond the end), all fixed-size read methods", "why_tests_cant": "all streams and positions", "anchors": ["opendis/stream.py:DataInputStream"]}
{"id": "C06", "title": "Length-prefixed byte strings", "statement": "write_utf followed by read_utf returns the same bytes for every byte string of at most 65535 bytes and write_utf raises struct.error for longer ones without writing; read_utf and read_bytes on a truncated stream return what is left without raising (so truncation is only detectable by comparing lengths).", "quantifier": "all byte strings, all truncation points", "why_tests_cant": "unbounded strings and truncation points", "anchors": ["opendis/stream.py:DataOutputStream.write_utf", "opendis/stream.py:DataInputStream.read_utf", "opendis/stream.py:DataInputStream.read_bytes"]}
{"id": "C07", "title": "64-bit unsigned fields round-trip", "statement": "write_uint64 followed by read_uint64 returns the written value for every value in 0..2^64-1. (The code violates this: values of 2^63 and above come back negative; the partial theorem covers values below 2^63 and the exact wrong result above.) Likewise write_char8 followed by read_char8 returns the character (violated: one byte written, two read).", "quantifier": "all unsigned 64-bit values; all characters", "why_tests_cant": "the failing half of the domain starts at 2^63, which tests with small frequencies never reach", "anchors": ["opendis/stream.py:DataOutputStream.write_uint64", "opendis/stream.py:DataInputStream.read_uint64", "opendis/stream.py:DataOutputStream.write_char8", "opendis/stream.py:DataInputStream.read_char8", "opendis/dis7.py:TransmitterPdu"]}
{"id": "C08", "title": "Every record and PDU round-trips", "statement": "For every wire class of the library that has a matching serialize/parse pair, and every object of it: if serialize succeeds, parsing the emitted bytes into a freshly constructed object succeeds and yields an object with the same value in every field carried on the wire (single-precision fields rounded as in C04), and default values elsewhere.", "quantifier": "all objects of each class: all field values, all list lengths, arbitrary nesting", "why_tests_cant": "objects range over an infinite product of field values and lists", "anchors": ["opendis/dis7.py", "opendis/record/common.py"]}
{"id": "C09", "title": "Parsing consumes exactly what was serialized", "statement": "Parsing an object whose bytes sit anywhere inside a larger stream leaves the read position exactly behind its last byte and does not depend on the bytes before or after, so PDUs and records written back to back can be read back to back.", "quantifier": "all objects, all surrounding bytes", "why_tests_cant": "quantifies over all surrounding streams and all objects", "anchors": ["opendis/dis7.py", "opendis/PduFactory.py"]}
{"id": "C10", "title": "Truncated PDUs are never accepted", "statement": "If the bytes of a serialized object are cut short at any point, parsing them raises an exception; no prefix of a valid encoding is itself accepted as the same PDU class.", "quantifier": "all objects of each class, all proper prefixes", "why_tests_cant": "every cut point of every object", "anchors": ["opendis/dis7.py", "opendis/stream.py"]}
{"id": "C11", "title": "Re-serializing a parsed PDU reproduces its bytes", "statement": "If parse accepts a byte string, then serializing the resulting object succeeds and emits exactly the bytes that were consumed, provided no single-precision field was a NaN and the class keeps every bit it reads.", "quantifier": "all byte strings accepted by parse", "why_tests_cant": "all byte strings", "anchors": ["opendis/dis7.py"]}
{"id": "C12", "title": "Serialization succeeds exactly when every field fits its slot", "statement": "serialize on an object raises if and only if some field does not fit: an integer outside its slot's range, a single-precision value that overflows, a list longer than its count field can hold, or a fixed-size array that is too short.", "quantifier": "all objects of each class", "why_tests_cant": "infinite domain of field values, both directions of an equivalence", "anchors": ["opendis/dis7.py"]}
{"id": "C13", "title": "Encoded size is the documented size", "statement": "A successful serialize emits exactly the number of bytes prescribed by IEEE 1278.1 for that PDU or record: a fixed part plus the fixed or computed size of each list element.", "quantifier": "all objects for which serialize succeeds", "why_tests_cant": "all list lengths and contents", "anchors": ["opendis/dis7.py", "opendis/record/common.py:marshalledSize"]}
{"id": "C14", "title": "Every PDU starts with the 12-byte DIS header", "statement": "The first 12 bytes emitted by serialize for any PDU are protocol version, exercise id, PDU type, protocol family (one byte each), timestamp (4 bytes), length (2 bytes), status and padding (1 byte each), in that order, holding the values of the object's attributes.", "quantifier": "all PDU objects of all classes", "why_tests_cant": "all header values for all classes", "anchors": ["opendis/dis7.py:PduSuperclass", "opendis/dis7.py:Pdu"]}
{"id": "C15", "title": "Count fields tell the truth", "statement": "Wherever a PDU carries a variable-length list, the count on the wire equals the number of elements that follow, and a list too long for the count field makes serialize raise struct.error instead of emitting a wrong count.", "quantifier": "all list lengths", "why_tests_cant": "unbounded list lengths; overflow is at 256/65536/2^32 elements", "anchors": ["opendis/dis7.py:EntityStatePdu.numberOfVariableParameters", "opendis/dis7.py:DatumSpecification", "opendis/dis7.py:ElectromagneticEmissionsPdu", "opendis/dis7.py:MinefieldStatePdu", "opendis/dis7.py:SignalPdu"]}
{"id": "C16", "title": "Distinct messages have distinct encodings", "statement": "Two objects of the same class that serialize to the same bytes have the same value in every wire field (single-precision fields after rounding), and no encoding of a class is a proper prefix of another encoding of that class.", "quantifier": "all pairs of objects of a class", "why_tests_cant": "quantifies over all pairs", "anchors": ["opendis/dis7.py"]}
{"id": "C17", "title": "A failed serialize leaves only a prefix behind", "statement": "When serialize raises, what it has written so far contains only the encodings of the fields before the offending one; in particular the output is not empty in general, so a caller must discard the stream.", "quantifier": "all objects for which serialize raises", "why_tests_cant": "all failing objects", "anchors": ["opendis/dis7.py", "opendis/stream.py"]}
{"id": "C18", "title": "Parsing into a used object appends", "statement": "Parsing into an object whose lists are not empty keeps the old list elements and appends the new ones, while all scalar wire fields are overwritten; hence parsing the same message k times leaves k copies of each list.", "quantifier": "all pairs of (old object, message), all repetition counts", "why_tests_cant": "histories of arbitrary length", "anchors": ["opendis/dis7.py:EntityStatePdu.parse", "opendis/dis7.py:DatumSpecification.parse", "opendis/dis7.py:SignalPdu.parse"]}
{"id": "C19", "title": "The factory selects the class by the type byte", "statement": "createPdu returns an object whose class is determined by the third byte alone according to the PduTypeDecoders table; for type bytes without an entry it returns None; with fewer than three bytes it raises struct.error. The choice does not depend on any other byte.", "quantifier": "all byte strings", "why_tests_cant": "all byte strings", "anchors": ["opendis/PduFactory.py:getPdu", "opendis/PduFactory.py:createPdu"]}
{"id": "C20", "title": "getPdu ignores the current read position", "statement": "getPdu on a stream gives the same result whatever position the stream had before the call.", "quantifier": "all streams, all positions", "why_tests_cant": "all positions", "anchors": ["opendis/PduFactory.py:getPdu"]}
{"id": "C21", "title": "Factory round-trip", "statement": "For every PDU class registered in the factory under its own type number, createPdu on the bytes of a serialized object returns an object of the same class with the same wire fields.", "quantifier": "all objects of all registered classes", "why_tests_cant": "all objects", "anchors": ["opendis/PduFactory.py:createPdu", "opendis/dis7.py"]}
{"id": "C22", "title": "Factory table agrees with the classes' type numbers", "statement": "Each entry n -> Class of the factory table satisfies Class.pduType = n, and every type number has at most one class. (Violated by 6 -> CollisionElasticPdu (66) and 41 -> PointObjectStatePdu (43); the theorem states the exact set of exceptions and a consequence: a serialized ResupplyOfferPdu decodes as a CollisionElasticPdu or raises.)", "quantifier": "all 256 type bytes", "why_tests_cant": "a whole-table claim plus a consequence for all ResupplyOffer PDUs", "anchors": ["opendis/PduFactory.py:PduTypeDecoders"]}
{"id": "C23", "title": "Registered types the factory can never decode", "statement": "The factory never returns an object for type 44 (the class constructor raises NameError), never for type 32 (parse raises TypeError or struct.error), and for type 31, 7, 29, 40, 63 messages announcing at least one list element it raises.", "quantifier": "all byte strings with those type bytes", "why_tests_cant": "all byte strings", "anchors": ["opendis/PduFactory.py", "opendis/dis7.py:LinearObjectStatePdu.__init__", "opendis/dis7.py:IntercomControlPdu.parse", "opendis/dis7.py:IntercomSignalPdu.parse"]}
{"id": "C24", "title": "Bit fields pack and unpack losslessly and independently", "statement": "A bitfield of any legal field list assigns each field its own bits, most significant first: packing then unpacking returns every field modulo 2^width, and changing one field changes only its own bits.", "quantifier": "all field lists accepted by bitfield(), all field values (also out of range and negative)", "why_tests_cant": "all layouts and all values", "anchors": ["opendis/record/bitfield.py:bitfield", "opendis/record/radio/__init__.py:NetId", "opendis/record/radio/__init__.py:SpreadSpectrum", "opendis/record/warfare/enums.py:DEFireFlags"]}
{"id": "C25", "title": "Bit-field declarations are validated", "statement": "bitfield() accepts a field list exactly when it is non-empty, every width is between 1 and 32, and the total is 8, 16 or 32 bits; every other list raises (24 bits raises AssertionError, everything else ValueError).", "quantifier": "all field lists", "why_tests_cant": "infinitely many field lists", "anchors": ["opendis/record/bitfield.py:bitfield"]}
{"id": "C26", "title": "Transmitter PDU with variable parts round-trips", "statement": "A TransmitterPdu whose modulation parameters match its radio system, with an optional beam antenna pattern, and no variable transmitter parameters, round-trips. (Violated when the frequency is >= 2^63, when the antenna pattern is of an unknown type, or when variable transmitter parameters are present.)", "quantifier": "all such PDUs", "why_tests_cant": "combinatorial choice of variable parts times all field values", "anchors": ["opendis/dis7.py:TransmitterPdu"]}
{"id": "C27", "title": "Standard variable records round-trip", "statement": "A standard variable record written by its serialize method and read back by parseStandardVariableRecord yields the same record. (Violated for every record class: the writer emits a 32-bit length or a duplicate header, the reader expects a 16-bit length; theorem: for every object the re-read record differs or an exception is raised.)", "quantifier": "all records of the four classes", "why_tests_cant": "all records", "anchors": ["opendis/dis7.py:parseStandardVariableRecord", "opendis/record/base.py:StandardVariableRecord", "opendis/record/__init__.py:getStandardVariableClass"]}
{"id": "C28", "title": "Record-type dispatch", "statement": "getStandardVariableClass returns the registered class for 3000, 4000, 4001, 4500 when it is a subclass of the expected type, raises TypeError when it is not, raises ValueError for negative types, and for unregistered types returns the placeholder class only if the expected type is the base class.", "quantifier": "all integers, all expected types", "why_tests_cant": "all integers", "anchors": ["opendis/record/__init__.py:getStandardVariableClass"]}
{"id": "C29", "title": "Entity marking text", "statement": "EntityMarking.setString followed by charactersString returns the original text for every text of at most 11 ASCII characters without NUL, returns the first 11 characters of longer ASCII texts, and the marking always occupies exactly 12 bytes on the wire; serialization fails for characters of code 128 and above. charactersString is the inverse of UTF-8 encoding on the numbers of the marking other than 0: it returns a text exactly if they are the UTF-8 encoding of that text, and otherwise raises UnicodeDecodeError, or ValueError if one is not between 0 and 255. Since markings are read as signed bytes, a received marking with a byte of 128 or more always raises ValueError.", "quantifier": "all strings", "why_tests_cant": "all strings", "anchors": ["opendis/dis7.py:EntityMarking"]}
{"id": "C30", "title": "Variable datum padding", "statement": "A VariableDatum whose declared bit length is a multiple of 8 occupies a multiple of 8 bytes on the wire and its padding is zero and skipped by the reader; a declared length that exceeds the supplied data raises IndexError. (The alignment claim fails for bit lengths that are not multiples of 8.)", "quantifier": "all declared lengths and data", "why_tests_cant": "unbounded lengths", "anchors": ["opendis/dis7.py:VariableDatum"]}
{"id": "C31", "title": "Signal data limits", "statement": "SignalPdu carries its data bytes unchanged when there are at most 8191 of them; with 8192 or more serialize raises struct.error (the length in bits no longer fits 16 bits).", "quantifier": "all byte sequences", "why_tests_cant": "unbounded lengths; limit is beyond ordinary test sizes", "anchors": ["opendis/dis7.py:SignalPdu"]}
{"id": "C32", "title": "Rotation matrices are rotations", "statement": "get_rotation_matrix returns, for all Euler angles, an orthogonal matrix with determinant 1, equal to the product of the elementary rotations Rz(psi) Ry(theta) Rx(phi); get_angular_velocity_matrix returns a skew-symmetric matrix whose product with v is the cross product omega x v.", "quantifier": "all real angles and vectors", "why_tests_cant": "uncountable domain", "anchors": ["opendis/DeadReckoning.py:get_rotation_matrix", "opendis/DeadReckoning.py:get_angular_velocity_matrix"]}
{"id": "C33", "title": "Dead reckoning at time zero is the identity", "statement": "Each of the nine dead-reckoning functions with dt = 0 returns the given position and orientation unchanged.", "quantifier": "all real states", "why_tests_cant": "uncountable domain", "anchors": ["opendis/DeadReckoning.py"]}
{"id": "C34", "title": "Dead reckoning composes over time", "statement": "Extrapolating by dt1 and then from the extrapolated state (velocity updated by acceleration*dt1 where the model has acceleration) by dt2 equals extrapolating once by dt1+dt2, for the fixed-orientation models, in world and body coordinates.", "quantifier": "all real states and all dt1, dt2", "why_tests_cant": "uncountable domain; a law about composition", "anchors": ["opendis/DeadReckoning.py:drm_fpw", "opendis/DeadReckoning.py:drm_fvw", "opendis/DeadReckoning.py:drm_fpb", "opendis/DeadReckoning.py:drm_fvb"]}
{"id": "C35", "title": "Dead-reckoning models are consistent with each other", "statement": "The acceleration models with zero acceleration equal the constant-velocity models; the rotating models with zero angular velocity equal the fixed-orientation models; the body-frame models with zero Euler angles equal the world-frame models; the distance travelled in a body-frame model equals the length of the body-frame displacement.", "quantifier": "all real states", "why_tests_cant": "uncountable domain", "anchors": ["opendis/DeadReckoning.py"]}
{"id": "C36", "title": "Euler rates reproduce the body angular velocity", "statement": "Away from gimbal lock, the Euler-angle rates used by drm_rpw are the unique rates whose corresponding body angular velocity is the given one; in the gimbal-lock branch the yaw rate is zero and the pitch rate is unchanged.", "quantifier": "all orientations and angular velocities", "why_tests_cant": "uncountable domain, branch boundary at |cos theta| = 1e-6", "anchors": ["opendis/DeadReckoning.py:drm_rpw"]}
{"id": "C37", "title": "Local tangent plane conversions are inverse isometries", "statement": "For a common origin, ned2ecef(ecef2ned(p)) = p and ecef2ned(ned2ecef(q)) = q, the origin maps to zero, and distances are preserved; ecefvec2nedvec returns a rotation matrix.", "quantifier": "all points, all origins other than the earth's centre", "why_tests_cant": "uncountable domain", "anchors": ["opendis/RangeCoordinates.py:GPS.ecef2ned", "opendis/RangeCoordinates.py:GPS.ned2ecef", "opendis/RangeCoordinates.py:GPS.ecefvec2nedvec"]}
{"id": "C38", "title": "Geodetic to ECEF conversion is geometrically right", "statement": "lla2ecef of (lat, lon, 0) lies on the WGS84 ellipsoid, (lat, lon, h) is reached from it by walking h along the outward ellipsoid normal of that latitude and longitude, longitude is 360-degree periodic, and the poles and the equator map to the semi-minor and semi-major axes. Every point at least 50 km from the centre has such coordinates, with latitude in [-90, 90], longitude in (-180, 180] and altitude at least -6335439 m; off the axis there is only one such triple; and the absolute altitude, if at least -6335439 m, is the distance of the point from the ellipsoid.", "quantifier": "all latitudes, longitudes, altitudes, all points at least 50 km from the centre", "why_tests_cant": "uncountable domain", "anchors": ["opendis/RangeCoordinates.py:GPS.lla2ecef", "opendis/RangeCoordinates.py:WGS84"]}
{"id": "C39", "title": "ECEF to geodetic conversion inverts it", "statement": "ecef2lla returns the exact longitude, special-cases the poles, raises only at the earth's centre, and the true latitude/altitude of a point are a fixed point of its iteration. For every point off the axis within 100 km of the ellipsoid it returns, with latitude and altitude within the stated errors of the coordinates of that point.", "quantifier": "all points off the polar axis with altitude above the evolute", "why_tests_cant": "uncountable domain and an unbounded loop", "anchors": ["opendis/RangeCoordinates.py:GPS.ecef2lla"]}
{"id": "C40", "title": "Axis-angle rotation", "statement": "rotate_3x3(theta, n) for a unit vector n is orthogonal with determinant 1, fixes n, composes additively in theta, and is the inverse of rotate_3x3(-theta, n).", "quantifier": "all angles, all unit vectors", "why_tests_cant": "uncountable domain", "anchors": ["opendis/RangeCoordinates.py:GPS.rotate_3x3"]}
{"id": "C41", "title": "Attitude conversions are mutually inverse", "statement": "The Euler angles returned by llarpy2ecef describe exactly the body axes obtained by yaw-pitch-roll rotations of the local north-east-down frame.", "quantifier": "all positions and attitudes", "why_tests_cant": "uncountable domain", "anchors": ["opendis/RangeCoordinates.py:GPS.llarpy2ecef", "opendis/RangeCoordinates.py:GPS.ecef2llarpy"]}
{"id": "C42", "title": "UTM zone selection", "statement": "For every longitude in [-180, 180) the UTM zone number is between 1 and 60 and the point lies within the zone (except the Norway/Svalbard exceptions); the latitude band letter is the one whose 8-degree band contains the latitude, and latitudes outside [-80, 80) get 'Z'. (Longitude exactly 180 yields zone 61, and band X is not extended to 84.)", "quantifier": "all longitudes and latitudes", "why_tests_cant": "uncountable domain with many boundaries", "anchors": ["opendis/RangeCoordinates.py:GPS.lla2utm", "opendis/RangeCoordinates.py:GPS.utmLetterDesignator"]}
{"id": "C43", "title": "Angle units", "statement": "deg2rad and rad2deg are mutually inverse and linear; euclideanDistance is the Euclidean metric (non-negative, zero exactly for equal points, symmetric, triangle inequality).", "quantifier": "all reals, all vectors of any dimension", "why_tests_cant": "uncountable domain, any dimension", "anchors": ["opendis/RangeCoordinates.py:deg2rad", "opendis/RangeCoordinates.py:rad2deg", "opendis/RangeCoordinates.py:euclideanDistance"]}
{"id": "C44", "title": "Range, azimuth, elevation", "statement": "ned2pae returns the distance, and azimuth/elevation angles from which the NED vector is recovered exactly by spherical coordinates.", "quantifier": "all NED vectors", "why_tests_cant": "uncountable domain", "anchors": ["opendis/RangeCoordinates.py:GPS.ned2pae"]}
{"id": "C45", "title": "Wire layout of every class", "statement": "serialize of every record and PDU class writes exactly the fields of the class's wire layout, in order, each with its width, signedness and byte order, and stops with the exception of the first field that does not fit.", "quantifier": "all objects of all wire classes", "why_tests_cant": "A test fixes some field values; a swapped pair of equal fields, a wrong width that happens to hold the tested value or a wrong exception path stays invisible.", "anchors": ["opendis/dis7.py", "opendis/record/common.py", "opendis/record/radio/__init__.py", "opendis/record/warfare/__init__.py"]}
{"id": "C46", "title": "UTM coordinates", "statement": "On the central meridian of its zone a point gets easting 500000 and scale factor 0.9996, with a northing of the sign of the latitude; points mirrored at the central meridian get mirrored eastings and equal northings and scale factors; points mirrored at the equator get negated northings (so no false northing is added in the southern hemisphere); the altitude is passed on; ecef2utm is lla2utm of ecef2lla.", "quantifier": "all latitudes, longitudes, altitudes", "why_tests_cant": "uncountable domain; symmetry laws relate two runs", "anchors": ["opendis/RangeCoordinates.py:GPS.lla2utm", "opendis/RangeCoordinates.py:GPS.ecef2utm"]}
{"id": "C47", "title": "PDU constructor arguments arrive", "statement": "An object built with a PDU constructor and serialized is decoded by the receiver (createPdu, or the parse of its class where the class is not registered) as an object whose attributes are the constructor arguments (with the documented defaults) and whose header carries the class's type and family, whatever bytes follow.", "quantifier": "all arguments of every sendable PDU constructor that survive single precision, all trailing bytes", "why_tests_cant": "There are 51 constructors with up to 20 parameters; a swapped or dropped argument is only seen by a test that gives every parameter a distinct value and compares all of them.", "anchors": ["opendis/dis7.py", "opendis/PduFactory.py:createPdu"]}
{"id": "C48", "title": "Record constructor arguments arrive", "statement": "An object built with a record constructor and serialized is parsed back as an object whose attributes are the constructor arguments (with the documented defaults).", "quantifier": "all arguments of every sendable record constructor, all trailing bytes", "why_tests_cant": "104 constructors; as C47.", "anchors": ["opendis/dis7.py", "opendis/record/common.py", "opendis/record/radio/__init__.py", "opendis/record/warfare/__init__.py"]}
{"id": "C49", "title": "Constructors that lose arguments or build unsendable objects", "statement": "EngineFuel, AngularVelocityVector, AggregateMarking and DataQueryPdu discard arguments, whatever they are; objects of AttachedParts, Environment, EnvironmentGeneral, SilentAggregateSystem, SeparationVP and DirectedEnergyFirePdu cannot be serialized after construction; several more cannot be serialized once they hold a list element.", "quantifier": "all arguments", "why_tests_cant": "A test shows the loss for one argument value, not that no value arrives.", "anchors": ["opendis/dis7.py"]}
{"id": "C50", "title": "The header constructor", "statement": "PduSuperclass(...) requires a type (argument or class attribute) and otherwise raises ValueError; the header that is sent carries the arguments given.", "quantifier": "all arguments and all class attributes", "why_tests_cant": "The combinations of argument given/not given and class attribute present/absent are many, and falsy arguments behave as absent ones.", "anchors": ["opendis/dis7.py:PduSuperclass.__init__"]}
{"id": "C51", "title": "Type numbers of the standard", "statement": "Every PDU class carries the type number of its message in IEEE 1278.1-2012, and the factory decodes a message of that number with that class.", "quantifier": "all classes, all type bytes", "why_tests_cant": "An interoperability property: a library talking to itself agrees with any number.", "anchors": ["opendis/dis7.py", "opendis/PduFactory.py"]}
{"id": "C52", "title": "Motion over the ground", "statement": "A small change of latitude, longitude or altitude moves the point returned by lla2ecef north, east or up respectively, by the ellipsoid's radius of curvature in that direction plus the altitude (times the cosine of the latitude for longitude) per radian, and metre by metre for altitude.", "quantifier": "all latitudes, longitudes and altitudes", "why_tests_cant": "A statement about derivatives at every point; tests compare isolated points.", "anchors": ["opendis/RangeCoordinates.py:GPS.lla2ecef"]}
{"id": "C53", "title": "Geocentric offsets", "statement": "lla2gcc without an origin is lla2ecef; with an origin (longitude, latitude, altitude) it is the offset from it, zero at the origin, with differences independent of the origin; it raises ValueError exactly if the origin does not have three numbers.", "quantifier": "all positions and all origins", "why_tests_cant": "The order of the origin's components only shows for asymmetric points; no test in the project covers the function.", "anchors": ["opendis/RangeCoordinates.py:GPS.lla2gcc"]}
{"id": "C54", "title": "Normal gravity", "statement": "g0 is smallest on the equator (9.7803267715), largest at the poles (9.83218636848), and of two latitudes (in radians) the one farther from the equator has the larger gravity.", "quantifier": "all latitudes", "why_tests_cant": "Monotonicity over a continuum.", "anchors": ["opendis/RangeCoordinates.py:WGS84.g0"]}
{"id": "C55", "title": "The UTM map is true to length and angle", "statement": "On the central meridian the northing of lla2utm is 0.9996 times the length of the meridian, up to a centimetre; inside a zone the map is conformal up to 4 parts in 10^9 at three degrees from the central meridian, and the returned k is its scale factor.", "quantifier": "all latitudes strictly between the poles, all longitudes in a zone", "why_tests_cant": "A wrong coefficient in a high-order term changes results by millimetres in most places; the property ties the coefficients to the geometry everywhere.", "anchors": ["opendis/RangeCoordinates.py:GPS.lla2utm"]}
{"id": "C56", "title": "Which exceptions received bytes can raise", "statement": "For each PDU type number the exceptions createPdu raises on some message of that type are exactly those of a table: struct.error for every registered type except 44; also NameError for 7, 29, 31, 33, 40 and 63 (and only NameError for 44), TypeError for 32, TypeError and ValueError for 25 and 69; none for unregistered types. In particular a receiver that handles these four survives any data.", "quantifier": "all byte strings", "why_tests_cant": "'Never raises anything else' is a claim about every byte string; the test suite only feeds well-formed messages.", "anchors": ["opendis/PduFactory.py:createPdu", "opendis/dis7.py:*.parse", "opendis/record"]}
{"id": "C57", "title": "Received data are not amplified", "statement": "A successful parse reads at least one byte for every element of the counted lists it builds, never moves past the end of the data, and (all classes but DirectedEnergyFirePdu and EntityDamageStatusPdu) reads exactly as many bytes as the object it returns serializes to. A message decoded by the factory and sent on is never longer than the data it came from, except types 25 and 69, which grow by at most eight bytes per record.", "quantifier": "all byte strings, all wire classes", "why_tests_cant": "Announced counts go up to 2^32-1; that none of them yields elements out of nothing is a universal claim over malformed data.", "anchors": ["opendis/PduFactory.py:createPdu", "opendis/dis7.py:*.parse"]}
{"id": "C58", "title": "marshalledSize is the serialized size", "statement": "For every record class of opendis/record with a marshalledSize method, and every bit-field class, a successful serialize writes exactly marshalledSize() bytes; hence the antenna-pattern and modulation-parameter lengths a Transmitter PDU announces are the lengths of the parts that follow, and the recordLength of a standard variable record is its length.", "quantifier": "all objects for which serialize succeeds, all bit-field declarations", "why_tests_cant": "The method is used only for the announced lengths, so a wrong value is visible only at the other end and for all list lengths and payloads.", "anchors": ["opendis/record/common.py:marshalledSize", "opendis/record/radio/__init__.py:marshalledSize", "opendis/record/warfare/__init__.py:marshalledSize", "opendis/record/__init__.py:55", "opendis/record/bitfield.py:103", "opendis/dis7.py:4998-5010"]}
{"id": "C59", "title": "What a failed parse leaves behind", "statement": "Whatever sequence of parse calls is made on one object, with any streams, each call succeeding or raising: attributes the class does not read keep their values and no list element is changed or removed; whether the next message is accepted, with which exception, and how many bytes are consumed is independent of the earlier calls; in a class without lists the next successful parse gives exactly what a fresh object would give; in the other classes the only trace of earlier calls are the elements they appended to lists.", "quantifier": "all classes, all objects, all sequences of parse calls, all byte streams", "why_tests_cant": "The state between two statements of a parse is visible only when a read in the middle fails; there is one such state per byte position per class, and sequences of failed calls multiply them.", "anchors": ["opendis/dis7.py:parse", "opendis/record/radio/__init__.py:parse", "opendis/record/common.py:parse"]}
{"id": "C60", "title": "The header of whatever the factory returns", "statement": "Whenever createPdu returns an object, for arbitrary data, the eight header attributes of the object are the numbers in the first twelve bytes of the data, the class is the one registered for the type number in the object, and two decoded messages with the same first twelve bytes agree in class and header.", "quantifier": "all byte strings", "why_tests_cant": "Malformed messages that happen to decode are unlimited; each of the 68 parse methods could overwrite or skip a header field on some path.", "anchors": ["opendis/PduFactory.py:createPdu", "opendis/dis7.py:PduSuperclass.parse", "opendis/dis7.py:Pdu.parse"]}
{"id": "C61", "title": "The example programs", "statement": "The example receiver shows an entity state message that fits its 1024-byte buffer with the entity number, the exact location and the angles rounded to single precision; it raises exactly if the factory raises on the first 1024 bytes or returns None; it shows all datagrams up to the first that raises, which ends it; the labels of the display are what the conversion means by them; a position is shown within a few metres. The message of the example sender is 144 bytes and shown as entity 42.", "quantifier": "all datagrams, sequences of datagrams, entity state objects, positions and attitudes", "why_tests_cant": "The test runs both programs on one message and looks for one word in the output.", "anchors": ["examples/dis_receiver.py", "examples/dis_sender.py"]}
{"id": "C62", "title": "Dead reckoning in floating point", "statement": "Computed in doubles, the positions of drm_fpw, drm_rpw, drm_fvw and drm_rvw are p + v dt and p + v dt + a dt^2/2 up to explicit rounding errors of a few units in the last place whenever they are finite; drm_rpw and drm_fpw, drm_rvw and drm_fvw give the same positions bit for bit; no time leaves the position as it is; a later time never gives a smaller coordinate if the velocity is not negative; n steps accumulate at most n rounding errors; an extrapolation in two steps need not equal one of twice the time. Finite sums, products and quotients are the doubles nearest to the exact results, the even ones of two. Signs and special values follow IEEE 754 too: sums and products commute, a sum is minus zero only if both summands are, a finite number minus itself is plus zero, products and quotients have the sign of exactly one negative operand, and NaNs arise exactly from NaNs, opposite infinities, zero times infinity, and equal kinds of zero or infinity divided.", "quantifier": "all double vectors and times, all numbers of steps", "why_tests_cant": "Rounding depends on all 64 bits of each argument; tests compare with a tolerance on a few numbers and cannot bound the error or show monotonicity.", "anchors": ["opendis/DeadReckoning.py:drm_fpw", "opendis/DeadReckoning.py:drm_rpw", "opendis/DeadReckoning.py:drm_fvw", "opendis/DeadReckoning.py:drm_rvw"]}
{"id": "C63", "title": "From the sender's state to the receiver's extrapolated position", "statement": "An entity state message that is sent, received by createPdu and dead-reckoned by t seconds with the rotating velocity model gives the sender's p + v t + a t^2/2, with a relative error of about 2^-24 on the distance travelled (single-precision fields) and 2^-50 on the position; in particular within a centimetre for t up to 1024 s, coordinates up to 8000 km and 131 km travelled. The extrapolation raises only what dt ** 2 raises, or a ValueError if pitch or roll is infinite.", "quantifier": "all entity state objects, trailing data, times, and components", "why_tests_cant": "No test combines sending, receiving and extrapolating, and the error depends on every bit of the fields.", "anchors": ["examples/dis_dead_reckoning.py", "opendis/DeadReckoning.py:drm_rvw", "opendis/PduFactory.py:createPdu"]}
{"id": "C64", "title": "Body-frame dead reckoning in floating point", "statement": "For finite Euler angles get_rotation_matrix returns finite entries within 2^-48 of the rotation matrix of these angles, with rows orthonormal up to 2^-45; the positions of drm_fpb and drm_fvb are p + R v dt and p + R (v dt + a dt^2/2) up to explicit rounding errors whenever they are finite; drm_rpb and drm_rvb give the same positions bit for bit and the orientation of drm_rpw; the functions raise ValueError exactly if an angle is infinite, and otherwise only what dt ** 2 raises.", "quantifier": "all finite Euler angles, all double vectors and times, all platforms whose cos, sin, matrix product and dt ** 2 are accurate as assumed", "why_tests_cant": "Rounding depends on all bits of nine products; a test compares a handful of attitudes with a loose tolerance.", "anchors": ["opendis/DeadReckoning.py:get_rotation_matrix", "opendis/DeadReckoning.py:drm_fpb", "opendis/DeadReckoning.py:drm_rpb", "opendis/DeadReckoning.py:drm_fvb", "opendis/DeadReckoning.py:drm_rvb"]}
{"id": "C65", "title": "The extrapolated orientation in floating point", "statement": "In doubles drm_rpw returns psi + (q sin phi + r cos phi)/cos theta dt, theta + (q cos phi - r sin phi) dt and phi + (p + (q sin phi + r cos phi) tan theta) dt up to explicit rounding errors if |cos theta| is above 10^-6, and psi itself, the same theta, and phi + p dt if it is below (margin 2^-50 of the threshold on both sides); drm_rvw returns the same orientation; no time changes nothing; a ValueError is raised exactly if pitch or roll is infinite.", "quantifier": "all finite Euler angles, angular velocities and times, all platforms with accurate cos, sin and tan", "why_tests_cant": "The error grows like 1/cos theta towards the threshold, where a wrong branch or a lost digit shows only for a few arguments.", "anchors": ["opendis/DeadReckoning.py:drm_rpw", "opendis/DeadReckoning.py:drm_rvw"]}
{"id": "C66", "title": "Objects of a program share nothing unless the program makes them", "statement": "Take any program that creates objects and lists of the library, parses any streams into them (successfully or not), replaces numbers, list elements and nested objects at any depth, appends to lists and moves one object into another, without putting the same object in two places. Then at any time no object or list can be reached from two of its objects; every object serializes, parses (exception, position) and reads attribute by attribute as if it were a value of its own; so nothing done to one object changes what another one serializes. Constructors without arguments never raise. If the program does put one object in two places, for example gives one SimulationAddress to two EntityIdentifier constructors, this fails: constructors keep the very object they are given (but replace an empty list by a new one). Assigning to a list element that is not there raises IndexError and changes nothing.", "quantifier": "all programs of the kind described, of any length, all classes of the catalogue and TransmitterPdu and IntercomControlPdu, all stream contents, any memory at the start", "why_tests_cant": "Sharing (mutable default arguments, class attributes, one object assigned twice) shows only when a program has several objects and changes one of them in a particular order; tests construct one PDU at a time.", "anchors": ["opendis/dis7.py", "opendis/record/common.py", "opendis/record/warfare/__init__.py"]}
{"id": "C67", "title": "The factory makes new objects and changes nothing else", "statement": "createPdu(data) on a memory that already holds any objects: it raises the same exception, or returns None, or returns a PDU, as if objects were values; the PDU and everything that can be reached from it is new; it serializes and reads attribute by attribute as the PDU of the other properties; and whatever the data and the outcome (also for messages that raise half-way), no object or list that was there before is changed. So a receiver that keeps all PDUs of any sequence of good and bad messages has in the end, for each good message, the PDU that message decodes to, and no two of them share anything. getPdu on any stream is a step in the programs of C66.", "quantifier": "all data, all memories, all sequences of messages of any length, all programs of C66 with calls of the factory added", "why_tests_cant": "Tests decode one file at a time and look at the result at once; a decoder instance or list reused between messages, or damage done by a message that raises, shows only in earlier PDUs after later messages.", "anchors": ["opendis/PduFactory.py:67-92", "opendis/dis7.py"]}
{"id": "C68", "title": "Numbers of other types in attributes", "statement": "Python does not check what is assigned to an attribute. An object of any class of C66 that has, anywhere in it, integers where floats are expected, or True/False where numbers are expected, serializes exactly as with the nearest doubles, or 0 and 1, in their places, with the same bytes and exceptions; assigning n or float(n) at any depth makes no difference. Up to 2^53 the conversion is exact, ties go to even. An integer of magnitude (2^54-1)*2^970 or more in a float field, and any float in an integer field, whole or not, make serialize raise struct.error. In single-precision fields an integer is rounded twice, so that the value sent need not be the single nearest to it.", "quantifier": "all programs of C66, all classes of its catalogue, all objects at any depth, all integers", "why_tests_cant": "Tests assign literals of the annotated type; the effect of an integer depends on its size (2^53, 2^60+2^36+1, 2^1024) and on where in an object it is.", "anchors": ["opendis/stream.py:108-184", "opendis/record/common.py:142-196", "opendis/dis7.py", "opendis/record/bitfield.py:99-100"]}
{"id": "C69", "title": "Constructors with arguments", "statement": "In any program of C66, calling the constructor of any class with keyword arguments, numbers or objects and lists that the program made and does not use otherwise, returns a new object and touches nothing else. Its attributes are those of the object made without arguments, except that each argument stands where its parameter says: the value itself for 'self.f = x', and for 'self.f = x or T()' the default when the argument is false (None, 0, empty list). It serializes accordingly, and the theorems of C66-C68 hold in programs that make objects this way. A name no parameter has, or a repeated name, is a TypeError. Exceptions: exactly ten parameters of four classes are ignored; BeamStatus raises TypeError for anything but int or bool; TransmitterPdu copies the list it is given while other PDUs keep it.", "quantifier": "all programs of C66, all constructors, all argument lists", "why_tests_cant": "There are over 160 constructors with up to about twenty parameters each, and whether an argument is shared, copied, replaced or dropped depends on its value and on the state of the memory.", "anchors": ["opendis/dis7.py", "opendis/record/common.py:39-43", "opendis/dis7.py:1969-1982", "opendis/dis7.py:2710-2744", "opendis/dis7.py:3154-3156", "opendis/dis7.py:4066-4077", "opendis/dis7.py:4952-4996"]}
{"id": "C70", "title": "Geodetic coordinates in floating point", "statement": "math.sqrt of a finite double raises ValueError for negative numbers and otherwise errs by at most 2^-53 of the root; for positive numbers no double is closer to the root. deg2rad and rad2deg err by at most 4.7e-18 per degree and 1.52e-14 per radian, and one after the other by 5.5e-16 of the angle. lla2ecef of a finite latitude in [-90, 90], longitude in [-360, 360] and altitude up to 2^900 raises nothing, and each coordinate of its result is within 4e-15*(6378137 + |altitude|) m of the exact one (26 nm on the ground); for altitude 0 the result satisfies the equation of the ellipsoid up to 3e-14. lla2gcc with an origin errs by at most 4.2e-15 times the sum of the two such distances. An infinite latitude is a ValueError.", "quantifier": "all finite doubles in the stated ranges, all C libraries whose sin, cos and pow err by at most 2^-52 of the result", "why_tests_cant": "A test compares a few points with another floating-point computation that has errors of its own; a bound for every double needs the propagation of rounding errors.", "anchors": ["opendis/RangeCoordinates.py:45-56", "opendis/RangeCoordinates.py:76-85", "opendis/RangeCoordinates.py:293-329"]}
{"id": "C71", "title": "From geocentric to geodetic coordinates in floating point", "statement": "ecef2lla of doubles within 0.4 um of a point at most 100 km from the ellipsoid and at least 1 m from the polar axis, with a tolerance from 1.3e-10 to 9e-7 (1e-9 is the default), leaves its loop after at most six rounds and returns; the latitude errs by at most 1.1e-5 + 1.1e-9*|altitude| degrees and the altitude by at most 1.17 + 0.0002*|altitude| m. The same holds for lla2ecef followed by ecef2lla, whose longitude has sine and cosine within 1e-7. Whenever the call returns off the axis and y is not -0, the longitude is within 1e-13 degrees of the angle of (x, y). On the axis it returns latitude +-90, longitude 69 and the height over the pole rounded to centimetres, and the centre of the Earth raises Exception. Near the axis the code fails: between 1e-150 and 1e-12 m from it, with |z| between 6200 and 6500 km, every call raises ValueError, although the same function on real numbers returns. The first of these holds for every point of space in this range, and its longitude errs, by its sine and cosine, by at most 3.01 times the error of the doubles divided by the distance from the axis plus 2e-15.", "quantifier": "all finite doubles in the stated ranges, all tolerances in the range, all C libraries whose sin, cos, atan, atan2 and pow err by at most one unit in the last place", "why_tests_cant": "Whether the loop ends depends on the difference of two rounded latitudes at every round; a test sees a few points, while the failing ones lie within 1e-12 m of the axis.", "anchors": ["opendis/RangeCoordinates.py:117-157", "opendis/RangeCoordinates.py:45-85"]}
{"id": "C72", "title": "Orientations in floating point", "statement": "llarpy2ecef of finite doubles at a latitude up to 1.5707963 radians returns; the position errs by at most 7e-15 of 6378137 m plus the altitude, and the three Euler angles stand for the orientation of the entity (local north-east-down frame turned by yaw, pitch and roll) within 7e-10 in every entry of the rotation matrix, gimbal lock included. ecef2llarpy of finite Euler angles returns wherever ecef2lla returns a finite latitude and longitude, and the returned roll, pitch and yaw give back the orientation within 2.1e-9; otherwise it fails as ecef2lla does. All angles returned are within half a turn, pitch and theta within a quarter, up to rounding. An infinite roll, pitch or yaw raises ValueError whatever the others are. One function after the other, within 100 km of the ellipsoid and at least 1 m from the axis, gives back the latitude within 2e-7 + 2e-11*|altitude| radians, the longitude within 1.3 um along the parallel, the altitude within 1.17 + 0.0002*|altitude| m and the orientation within 2.8e-9.", "quantifier": "all finite doubles in the stated ranges, all C libraries and numpy builds whose sin, cos, atan2, pow and products of vectors stay within the stated errors", "why_tests_cant": "The errors are largest next to gimbal lock and next to the poles, where the single angles jump; a test compares angles at a few attitudes and must avoid exactly these.", "anchors": ["opendis/RangeCoordinates.py:160-232", "opendis/RangeCoordinates.py:403-476", "opendis/RangeCoordinates.py:506-530"]}
{"id": "C73", "title": "Local coordinates in floating point", "statement": "ecef2ned returns the components of ecef - origin along north, east and down at the latitude and longitude that ecef2lla gives for the origin, within 1.4e-14 of the distance, and along the true directions within 0.61 um per metre plus 6e-11 per metre of altitude plus 2.6e-6 over the distance from the axis. ned2ecef after ecef2ned gives back the point within 3e-14 of the distance plus one rounding of the coordinate, and ecef2ned after ned2ecef the vector within 4e-14 of its size plus 4e-16 of the coordinates of the origin, however inaccurate the latitude is. ned2pae returns the length within 7e-16 of it and angles from which the vector is recovered within 6e-15, also straight up; the range of ecef2pae is the straight-line distance within 1.6e-14. If ecef2lla raises or does not return for the origin, so do all three.", "quantifier": "all finite doubles in the stated ranges, all origins for which ecef2lla returns a finite latitude and longitude, all C libraries and numpy builds within the stated errors", "why_tests_cant": "That the error of the latitude cancels in the round trip but not in the direction is a statement about all origins; tests compare a few points with tolerances of their own.", "anchors": ["opendis/RangeCoordinates.py:235-260", "opendis/RangeCoordinates.py:479-503", "opendis/RangeCoordinates.py:59-70"]}
{"id": "C74", "title": "From the example sender to the example receiver in floating point", "statement": "A position within 100 km of the ellipsoid and at least 1 m from the axis and any finite attitude, converted by the example sender, sent in 144 bytes and converted back by the example receiver, is shown as entity 42 with the latitude within 1.2e-5 + 1.2e-9*|altitude| degrees, the longitude within 1.4 um along the parallel, the altitude within 1.17 + 0.0002*|altitude| m, and the orientation in space within 1e-6 in every entry of the rotation matrix; roll, pitch and yaw come back with errors of that order divided by the cosine of the pitch. The program as it is shows latitude 36.6 within 1.3e-5, longitude -121.9 within 1e-8, altitude 1 within 1.18 and angles within 0.0015 degrees of zero. A location that was never set raises, as does one within 1e-12 m of the axis near a pole; a message with an infinite angle is never shown; the first datagram on which a call raises or does not return is the last.", "quantifier": "all finite doubles in the stated ranges, all C libraries and numpy builds within the stated errors, all sequences of datagrams", "why_tests_cant": "Three conversions, a rounding to single precision and a matrix of each sign combine; the test runs one position and looks at one word of the output.", "anchors": ["examples/dis_sender.py:24-45", "examples/dis_receiver.py:24-59", "opendis/RangeCoordinates.py:160-232", "opendis/RangeCoordinates.py:403-476"]}
{"id": "C75", "title": "UTM coordinates in floating point", "statement": "For finite doubles with latitude between -84 and 84 and longitude between -180 and 180 degrees lla2utm returns. The band letter is that of the exact latitude. The zone number is that of the exact longitude, except that it may be the next one less than 1e-13 degrees west of a multiple of six (it is, just west of Greenwich, and the last double below 180 gets zone 61). The easting is within 38 nm, the northing within 46 nm and the scale factor within 1.3e-15 of what the formulas give exactly at that position, or in that exceptional strip at the multiple of six; the altitude is returned as it is. A longitude that is not a number raises a ValueError, an infinite one an OverflowError, an infinite latitude a ValueError. ecef2utm is lla2utm of what ecef2lla returns. g0 errs by at most 6e-15 m/s^2 at every finite latitude.", "quantifier": "all finite doubles in the stated ranges, all C libraries within the stated errors", "why_tests_cant": "The strip in which the zone is wrong is thinner than any grid of test points, and the errors are bounds over all positions and all libraries.", "anchors": ["opendis/RangeCoordinates.py:332-400", "opendis/RangeCoordinates.py:542-564", "opendis/RangeCoordinates.py:263-266", "opendis/RangeCoordinates.py:99-107"]}
{"id": "C76", "title": "The demonstration of dead reckoning", "statement": "run_demo of examples/dis_dead_reckoning.py makes eleven rounds at exactly 0, 0.5, ..., 5 s and shows in each an x within 1e-13 m of 10 t + t^2/2 and y = z = 0. The end it computes is within 30 nm of the start (36.6 N, 121.9 W, 100 m) plus 62.5 m along the geocentric x axis; the latitude shown is within 1.2e-5 degrees of that of this point, the altitude within 1.21 m, the longitude within 6e-14 radians. With any step whose multiples are doubles, the loop makes one round for each multiple that is at most the duration, at exactly these times; with steps of 0.1 for 0.3 s it makes one round fewer. With a negative duration the program raises NameError. From any start up to 50 km from the ellipsoid and with any displacement of up to 20 km along each axis that ends at least 1 m from the axis of the earth, the second part returns, with the same kind of bounds.", "quantifier": "all steps, durations, motions, starts and displacements in the stated ranges, all C libraries whose sin, cos, atan, atan2 and pow err by at most one unit in the last place", "why_tests_cant": "The number of rounds depends on rounding in every addition of the step, and the accuracy is claimed for every start, displacement and library.", "anchors": ["examples/dis_dead_reckoning.py:16-145", "opendis/DeadReckoning.py:drm_rvw", "opendis/RangeCoordinates.py:117-157"]}
{"id": "C77", "title": "The model is the source: syntax trees of the methods, run by an interpreter, do what the model does", "statement": "For each of the compared record and PDU classes, running the syntax trees of the Python source with an interpreter of the part of Python they use has the same effect as the class of the model: serialize writes the same bytes, ends with the same result or exception and leaves the object as it was; parse consumes the same bytes, ends with the same result or exception and leaves the object in the same state, also when it raises half way; the constructor without arguments makes the object of the model, up to integers 0 in float attributes and False in integer ones, which are written and parsed over in the same way. Different objects of the model stand for different Python objects. As a consequence the round trip holds for the source text itself: what serialize writes, the constructor and parse read back into an object with the same attributes. The constructors of LinearObjectStatePdu and AttributePdu raise NameError and ValueError; IntercomControlPdu.parse of the source raises on every input. A constructor called with any arguments of the types of the model, given by position, by name or left to their defaults, makes the object the model makes of them; AngularVelocityVector(x, y, z) makes (0, 0, 0) whatever its arguments. setString and charactersString of EntityMarking do what the model's do, and an ASCII text set, sent, received and read by the source is the text cut to eleven characters. __init__ of PduSuperclass and of the family classes, run on any object whose class has a pduType, leaves exactly the header attributes its arguments, the attributes of the class and the defaults determine (a protocolFamily given without a pduType is dropped); without a pduType it raises ValueError. The constructors of LinearObjectStatePdu and AttributePdu raise whatever their arguments are.", "quantifier": "all objects, all input streams, all bytes already written, all depths of nesting of at least 8, all compared classes, all arguments of constructors and all ways of passing them", "why_tests_cant": "It relates two programs on all inputs; a wrong transcription of one statement may show only for rare inputs or only in the state left behind by an exception.", "anchors": ["opendis/dis7.py:serialize", "opendis/dis7.py:parse", "opendis/dis7.py:__init__", "opendis/record/common.py", "opendis/dis7.py:1222-1231"]}
{"id": "C78", "title": "The models of the numerical modules are the source: their syntax trees, run by an interpreter, compute the same doubles", "statement": "For every function of RangeCoordinates.py and DeadReckoning.py that the library or its examples call, running the syntax tree of the Python source with an interpreter of the part of Python and numpy it uses comes to what the floating-point model computes: the same doubles bit for bit, the same exception, and no end where the loop of ecef2lla has none. Where the code squares numpy scalars (ecef2pae, llarpy2ecef, ecef2llarpy) this is claimed if the squares of the model do not raise; for ecef2lla with a tolerance of at most 90. A call comes to one result only, so what is proved of the models holds for the source text: the round trips lla2ecef / ecef2lla and llarpy2ecef / ecef2llarpy have the accuracy of C71 and C72, ecef2pae returns the distance with that of C73, ecef2lla raises at the centre of the earth; ecef2ned followed by ned2ecef, lla2utm, g0 and the eight moving dead reckoning functions have the bounds of C73, C75, C62 and C64. euclideanDistance of two points of any lengths comes to the same as that of their difference, raises IndexError if the second is shorter, and in space errs by at most 1.1e-15 of the distance and 4e-15 m; get_angular_velocity_matrix returns the matrix of the cross product exactly. A whole number in place of a float makes no difference to lla2ecef, llarpy2ecef, rotate_3x3, ecefvec2nedvec, g0, deg2rad and (up to 2^53) rad2deg; the call in examples/dis_sender.py, as it stands there, makes the message that the receiver shows as Monterey. The dead reckoning functions return the same for lists of whole numbers as for arrays of doubles, and refuse whole numbers beyond the largest double.", "quantifier": "all doubles including infinities and NaN, tuples, lists or arrays of arguments, all C libraries, all orders of summation in numpy's products, all parsers of numbers", "why_tests_cant": "It relates two programs on all doubles and for all libraries; a wrong transcription of one sign, index or order of operations may show only in the last place or only for rare inputs.", "anchors": ["opendis/RangeCoordinates.py", "opendis/DeadReckoning.py"]}
{"id": "C79", "title": "The models of the streams and of the factory are the source: their syntax trees, run by an interpreter, do the same", "statement": "Every method of DataInputStream and DataOutputStream (stream.py, with the names of types.py), run as a syntax tree of the Python source, reads, writes, returns and raises as the model's method of that name, for every value it is given. The table of stream methods with which C77 runs the records and PDUs is what these trees do. PduTypeDecoders of PduFactory.py has the keys and classes of the model's table. getPdu, createPdu and createPduFromFilePath of the source, creating and parsing objects by the syntax trees of their classes, return the Python object for the model's PDU, or None, or raise the model's exception, and consume the same bytes for every input. What the source writes for an object of a registered class, the source's factory turns back into the same object. Stated of the source's createPdu alone, for every message: the third byte decides (fewer than three bytes raise struct.error, an unknown type gives None, otherwise an object of the class in the table or an exception); the header attributes of an object it returns are the first 12 bytes; exactly the exceptions of the table of C56 are raised for each type; types 44 and 32 are never decoded; no proper beginning of a written message is decoded (except TransmitterPdu); an object sent on is not longer than the message it came from (except TransmitterPdu and EntityDamageStatusPdu).", "quantifier": "all streams, values, messages, files and objects; all message types", "why_tests_cant": "It relates two programs on all inputs, including values of the wrong type, truncated messages and every type byte; a wrong format character or a swapped table entry shows only for particular values.", "anchors": ["opendis/stream.py:27-184", "opendis/types.py:12-34", "opendis/PduFactory.py:11-100"]}
{"id": "C80", "title": "Derived attributes and sizes, as the source computes them", "statement": "Every attribute of a record or PDU class that is a method under @property (counts of records, lengths, the datum lists delegated to a DatumSpecification) can be read from any object in any state: the source returns the length of the list meant, or the list or number of the part it delegates to, and changes neither the object nor the streams. Assigning to such an attribute raises AttributeError and changes nothing. marshalledSize() of the source returns the number of bytes that serialize of the source writes, for the common records, the bit field classes, ModulationType, the target energy deposition, the antenna patterns and the modulation parameters; for the standard variable records it returns 2 (radio), 12 (area aimpoint) or 8 (the others) less. The counts of an area aimpoint record and of a linear object state are the lengths of their lists. is_positive_int is true of the integers from zero on (also of zero, against its name), of both truth values and of nothing else.", "quantifier": "all objects of the classes, all variables that hold them, all states; all derived attributes of the 166 classes compared in C77 and of TransmitterPdu", "why_tests_cant": "A property that returns the length of the wrong list agrees with the right one on every object whose lists have equal length, in particular on fresh objects, which is what tests make.", "anchors": ["opendis/dis7.py:4500-4513", "opendis/dis7.py:4998-5014", "opendis/record/base.py:61-100", "opendis/record/warfare/__init__.py:72-268"]}
