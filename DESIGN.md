# Formal model of open-dis-python: design

## What is modelled, and how

| code in /repo | model in lean/Verif |
|---|---|
| `struct`, `BytesIO`, exceptions (Python runtime, as far as used) | `Py/*.lean`, hand written |
| `opendis/stream.py` | `Stream.lean`, hand written |
| `opendis/record/{common,bitfield,base,__init__}.py`, `record/radio`, `record/warfare` | `Model/*.lean` (common: generated; the rest by hand) |
| `opendis/dis7.py` | `Model/*.lean`, produced by `tools/gen.py`, which parses the Python source and transliterates each statement of `__init__`, `serialize` and `parse` |
| `opendis/PduFactory.py` | `Model/Factory.lean` |
| `PduSuperclass.__init__` with its class attributes | `Model/Header.lean` |
| `opendis/DeadReckoning.py`, `opendis/RangeCoordinates.py` | `Geo/*.lean`, over the real numbers |

* A method that writes is a value of `W α`: the bytes emitted so far and either a result or the
  Python exception that ended it. Bytes emitted before an exception are kept.
* A method that reads is a function of the input stream (data, position) returning a result or an
  exception, and the new stream.
* The state of an object after a `parse` that raised is modelled in a second transcription of every `parse`
  (`Py/InPlace.lean`, `Model/InPlace*.lean`, generated from the Python source by `tools/geninplace.py`): a
  program that changes its object statement by statement. C59 proves that it ends like the first one.
* `serialize` and `parse` are transcribed separately, statement by statement, from the two Python
  methods. No common schema exists from which both are derived, so that a round trip is a theorem
  about two programs, not a consequence of the representation.
* Python ints are `Int` (unbounded). Python floats are 64-bit patterns; conversion to and from
  binary32 is modelled on the patterns (round to nearest, ties to even, overflow error, NaN
  quieting), and related to the rationals they denote in the theorems of C04.
* An attribute that the constructor does not create is an `Option`; using it while absent is an
  `AttributeError`.
* Geometry is over ℝ in `Geo/*.lean`. `DeadReckoning.py` is modelled a second time in doubles
  (`Py/Arith.lean`: IEEE 754 addition, multiplication, division on the patterns; `Model/DeadReckoning.lean`);
  C62 to C65 relate the two. So is the part of `RangeCoordinates.py` named in C70 to C75 (`Model/RangeCoordinates.lean`,
  `Model/RangeFrames.lean`, `Model/RangeUtm.lean`, `Py/Sqrt.lean`); its other functions are modelled over ℝ only.
* What C library and numpy compute inexactly or in an unspecified order (`cos`, `sin`, `tan`, `dt ** 2`, matrix
  times vector) is a parameter, the `Platform`; theorems that need accuracy assume it as a hypothesis from
  `Spec/Platform.lean`. `Proof/Reference.lean` proves that a platform meeting the hypotheses exists.

## Trusted base

* Lean 4.33.0's kernel; axioms `propext`, `Classical.choice`, `Quot.sound` only. No further axioms,
  no `sorry`, no `native_decide`, no `bv_decide`.
* The transcription of the Python source into Lean (by hand and by `tools/gen.py`), and the model of
  the Python runtime named above. For the classes of C77 the transcription need not be trusted: what is trusted
  instead is that `Source/*` holds the syntax trees (`tools/gensource.py`, which maps each node of Python's `ast`
  to one constructor) and that the interpreter `Py/Source.lean` means by them what Python means. The same holds for
  the floating-point models of the numerical modules by C78 (`Source/Calc.lean`, `tools/gencalc.py`, `Py/Calc.lean`),
  and for the streams and the factory by C79 (`Source/Io.lean`, `tools/genio.py`, `Py/Io.lean`).
* The interpreter treats objects as values that are put back after a call, see C66 and C67; raises `unsupported` for
  whatever is outside of the part of the language it covers, so that no theorem of C77 rests on such a construct
  unless it says that the exception is raised; keyword arguments that no parameter has are not rejected.

## Not modelled

* Aliasing of mutable objects between PDUs, except in C66 to C69: in the other theorems an object is a value,
  its parts are its own. C66 and C67 justify this for programs that do not themselves put one object in two places.
* `__init__` annotations and type checks of arguments (Python does none). Ints where floats are expected, and
  vice versa, are modelled in C68 (`serialize` only); strings and other objects in the place of numbers are not.
* Streams other than in-memory `BytesIO`. Memory exhaustion.
* Floating-point rounding in `RangeCoordinates.py`, except in C70 to C75; NaN payloads of arithmetic results; numpy's warnings and
  its error state; numpy broadcasting beyond the shapes used.

## Plan per property

| id | model | proof |
|---|---|---|
| C01–C03 | `Stream.lean` | big-endian digits lemmas by induction on width; range analysis by `omega` |
| C04 | `Py/Float.lean` | case analysis on exponent; comparison of rationals |
| C05, C06 | `Stream.lean` | direct |
| C07 | `Stream.lean` | negation with witness plus `_partial` for the lower half |
| C08, C09 | all wire classes | lockstep relation between a writer and a reader closed under sequencing and loops; one theorem per class, then one theorem over the sum type of all PDUs |
| C10, C16 | all wire classes | readers only depend on bytes they consume; consequence of C08 |
| C11 | all wire classes that keep each bit | inversion of the reader step by step |
| C12, C13 | all wire classes | compositional characterisation of success and length |
| C14 | header classes | first three calls of every PDU serialize |
| C15, C17, C18 | list-carrying classes | list induction |
| C19–C23 | `Model/Factory.lean` | case analysis on the type byte |
| C24, C25 | `Model/Bitfield.lean` | induction over the field list |
| C26–C28 | transmitter and record models | as C08; negations by explicit witnesses or for all objects |
| C29–C31 | marking, datum, signal | string/list induction, arithmetic |
| C32–C36 | `Geo/DeadReckoning.lean` | matrix algebra over ℝ, `ring`, trigonometric identities |
| C37–C44 | `Geo/RangeCoordinates.lean` | the same; `Real.arctan`/`Complex.arg` for atan2; that every point has coordinates (`Chart`) by the intermediate value theorem in the latitude and a supporting line of the ellipse |
| C45 | all wire classes | the bytes written equal those of a layout table (`Spec/Layout*.lean`) interpreted by a ten-line function |
| C46 | `Geo/RangeCoordinates.lean` | parity of the series terms |
| C47, C48 | all constructors | round trip (C08/C21) plus evaluation of the constructor; one generated theorem per class |
| C49 | the constructors that discard arguments | evaluation; failing first write |
| C50 | `Model/Header.lean` | case analysis on the presence of arguments and class attributes |
| C51 | `Model/Factory.lean`, `Spec/Standard.lean` | case analysis on the class |
| C52 | `Geo/RangeCoordinates.lean`, `Spec/Geo.lean` (radii of curvature) | derivatives of the closed form |
| C53 | `Geo/RangeCoordinates.lean` | case analysis on the origin |
| C54 | `Geo/RangeCoordinates.lean` | monotonicity of numerator and denominator |
| C55 | `Geo/RangeCoordinates.lean`, `Spec/Geo.lean` | the series and its derivatives as polynomials; Cauchy-Riemann residuals bounded term by term; meridian arc by integrating a rate error |
| C56 | `Model/Factory.lean`, every `parse`, `Spec/Raised.lean` | `Only E r` (exceptions of `r` are in `E`) by composition over every class; one witness message per table entry, evaluated |
| C57 | every `parse`, `Spec/Received.lean` | `Takes r m` (a successful run consumed `m` of its result) by composition over every class, generated; catalogue and factory by cases; two classes that grow are refuted and bounded |
| C58 | `Model/Sizes.lean`, every `marshalledSize` | comparison with the proved size of `serialize` per class; violated by all standard variable records, whose excess is stated exactly |
| C59 | `Model/InPlace*.lean`: every `parse` as a program on its object, `Spec/InPlace*.lean` | per class: equality with the first transcription, an invariant kept by every statement, independence of the object's state; generated; then induction over sequences of calls, for the catalogue |
| C60 | as C19; `AnyPdu.toPdu` | every parser begins with the header parser and leaves its result alone (generated, one lemma per class), and what the header parser read serializes to the bytes read |
| C61 | `Model/Examples.lean`, `Geo/Examples.lean`: `recv`, the loop, `send`, the display | from C21, C60, C39 and C41; induction over the datagrams; violated: the labels "Yaw" and "Roll" are exchanged |
| C62 | `Py/Arith.lean`, `Model/DeadReckoning.lean` on doubles | nearest-double theorem for the operations, signs and special values by cases (`Props/DoubleRules`), forward error analysis; monotonicity of rounding; induction over the steps |
| C63 | as C62 and C21; `Model/Demo.lean` | round trip through the factory gives single-precision fields; their error (C04) added to that of C62 |
| C64 | as C62; `get_rotation_matrix` and the body-frame models on doubles | error propagation through products and sums, from `TrigOk`, `MatvecOk`, `SquareOk`; entries are bounded by orthogonality (C32) |
| C65 | as C62; the Euler rates of `drm_rpw` on doubles | the same, with division; the comparison with the literal 1e-6 decided away from the threshold |
| C66 | constructors, `parse` and `serialize` of the classes of the catalogue, of `TransmitterPdu` and of `IntercomControlPdu` as programs on a memory of objects and lists with references (`Py/Heap.lean`, `Model/Heap1..5`, `Model/HeapSpecial`, generated from the source by `tools/genheap.py`), standard variable records, modulation parameters and antenna patterns found by their type and serialized by their class; user code as attribute paths (`Py/HeapUser.lean`) | every class: its program on the memory refines its program on values (C59), touches only the cells of its object, makes only fresh cells; then induction over the steps of a program (`Session`), with the invariant that the cells of different objects are disjoint |
| C67 | `getPdu`, `createPdu` and the two constructors that raise as programs on a memory of objects (`Model/HeapFactory`) | the factory refines the factory on values (`getPdu_loads`, from the refinement of each class) and makes only fresh cells; steps added to `Session`; induction over the list of messages |
| C68 | `struct.pack` of ints and bools in float formats, bools in integer formats and bitfields (`Py/Heap`: `asFloat`, `asInt`, `asField`; `Py/Arith`: `F64.ofInt`) | the relation between memory and values in the proofs of `serialize` is up to the types of numbers (`Proof/HeapAmounts`), so C66's catalogue proofs give it for all classes; conversion from `roundMag` |
| C69 | all constructors called with arguments by name on the memory of objects (`Model/HeapArgs`, generated; arguments by position are the ones with the names of the first parameters), what each parameter stands for in the table `Spec/HeapCtors` | per class (generated): the program of the constructor makes the default object with the arguments in place, given the cells of the arguments; table facts by evaluation of the whole table in the kernel; a step `construct` of `Session`, so that C66 to C68 hold for programs that call constructors with arguments; objects given to a constructor are given up by the program |
| C70 | `lla2ecef`, `lla2gcc`, `deg2rad`, `rad2deg` of `RangeCoordinates.py` in doubles (`Model/RangeCoordinates`, `Py/Sqrt`); `sin`, `cos` and `x ** 2` are parameters with the accuracy of `Spec/Platform` and `Spec/Libm` | error propagation through each operation with explicit bounds; integer square root with marked last bit for `sqrt`; the constants evaluated in the kernel and compared with π and the exact eccentricity |
| C71 | `ecef2lla` in doubles (`Model/RangeCoordinates`): branches on the axis, the loop, `round(x, 2)`; `atan`, `atan2` are further parameters | one round on doubles against one exact round from the same state (`Geodetic64`, `b`), against the fixed point (`c`), contraction of the distance between rounds until the tolerance (`d`, `e`); near the axis, the gap between a double and a right angle (`Axis64`); decimal rounding bounded (`Round64`) |
| C72 | `llarpy2ecef` and `ecef2llarpy` in doubles (`Model/RangeFrames`): `rotate_3x3`, the local frame, three rotations, three angles; `dot` of two vectors is a further parameter (`Numpy`, `Numpy.Accurate`) | errors of products and rotations added up (`Frame64`, `Turned64`), angles recovered up to the product of their matrices (`Angles64`, `Extract64`), position and latitude from C70 and C71 (`Position64`, `Llarpy64`) |
| C73 | `ecef2ned`, `ned2ecef`, `ned2pae`, `ecef2pae` in doubles (`Model/RangeFrames`) | the turned offset and its rounding (`Local64`), the frame at two places compared, the sum of squares and the spherical angles (`Ned64`); the two frames of doubles are transposes of each other, so that errors of `ecef2lla` cancel in the round trip |
| C74 | both example programs with their conversions in doubles (`Model/ExamplesDbl`) | C72, C71 and the round trip through the wire (C61) put together; the rounding to singles and the degrees shown as small changes of the angles (`Trip64`); angles read off from two nearly equal attitudes |
| C75 | `lla2utm`, `ecef2utm`, `utmLetterDesignator` and `g0` in doubles (`Model/RangeUtm`); `x ** n` is a further parameter (`CMath`, `CMath.Accurate`) | bounds of value and error for each operation of the series (`Bounded`, `UtmSeries64`, `Utm64`); the zone from sums and quotients being nearest doubles, so on the right side of the whole numbers (`Correct`, `Zone64`). The code gives the next zone just west of a boundary and zone 61 just below 180 (`C75_edge_violated`, `C75_last_violated`) |
| C76 | `examples/dis_dead_reckoning.py` in doubles (`Model/DemoRun`): the message, the loop, the conversion at the end; printing is left out | the clock by exact sums, the loop by the least round at which it ends (`Proof/Demo`), the position by error propagation, the end by C70 and `C71_point` with the coordinates of an arbitrary point from `C38_every_point` |
| C77 | the syntax trees of all methods of the record and PDU classes as data (`Source/*`, dumped node by node by `tools/gensource.py`), an interpreter for the part of Python they use (`Py/Source`), the objects of the model as values (`Source/Encode*`); compared are all 166 classes of the catalogue (`Spec/SourceCatalog`, `Spec/SourceSpecial`, `Spec/SourceDirected`), TransmitterPdu and IntercomControlPdu (`Source/EncodeRadio`), and the functions `getStandardVariableClass` and `parseStandardVariableRecord` with the records they make | one lemma per kind of statement (`Proof/Source*`), put together for each method by generated proof terms (`tools/gensourceproof.py`, `Proof/SourceRun*`), by hand for the classes with branches (`Proof/SourceHand`) and for those with bit fields or lengths (`Proof/SourceSpecial*`, `Proof/SourceRecords`), for the functions of modules (`Proof/SourceFunctions`) and the PDUs that use them (`Proof/SourceDirected`), for the two PDUs outside the catalogue (`Proof/SourceRadio`, `Proof/SourceTransmitter`, `Proof/SourceIntercom`); constructors without arguments by evaluation, with arguments statement by statement (`Spec/SourceArgs`, `Spec/SourceInit`, `Proof/SourceInit*`, written by `tools/gensourceinit.py`) for 164 of the 166 classes and the two PDUs; `AngularVelocityVector` drops its arguments, `ChangeOptions` has none. The interpreter accepts a named argument that is given twice or that no parameter has, where Python raises `TypeError`; `Supplied` says nothing about these. `__init__` of the header and of the eight family classes is run on any object of a type, with any arguments (`Spec/SourceFamily`, `Proof/SourceInitMore`): constructors of subclasses without a `pduType` raise, and a `protocolFamily` given without a `pduType` is dropped (dis7.py:3450-3454). The constructors of LinearObjectStatePdu and AttributePdu raise whatever their arguments. A float parameter is given a float, and where the default is not an object of the model (`DEFireFlags`, `EEFundamentalParameterData`) the argument has to be given. `setString` and `charactersString` by an invariant of the loop (`Proof/SourceText`); strings are lists of code points, `filter` gives a list at once |
| C78 | the syntax trees of `RangeCoordinates.py` and `DeadReckoning.py` as data (`Source/Calc`, dumped by `tools/gencalc.py`), an interpreter for the part of Python and numpy they use (`Py/Calc`): Python floats, numpy scalars and arrays of integers and of doubles are told apart; the C library, products of numpy and the parser of numbers are parameters (`Machine`) | each function is run symbolically (`calc_run` in `Proof/Stuck`, `Proof/Calc*`) and compared with the floating-point model of C62 to C75; loops by induction; that the code turns arrays of integers where the model turns arrays of doubles matters only in signs of zeros that do not reach the result (`Proof/ZeroSign`). The bounds of C62, C64, C73 and C75 are restated for the trees (`Props/CalcAccuracy`), with `euclideanDistance` of two points and the two matrices of `DeadReckoning.py`. Whole numbers in place of floats (`Spec/CalcWhole`, `Proof/CalcWhole`) are compared for `lla2ecef`, `llarpy2ecef`, `rotate_3x3`, `ecefvec2nedvec`, `g0`, `deg2rad` and `rad2deg`, and for the call in `examples/dis_sender.py` (`C78_sender`), and in the lists given to the dead reckoning functions (`Props/CalcArrays`); the other functions only with floats |
| C79 | the syntax trees of `stream.py`, `types.py` and `PduFactory.py` as data (`Source/Io`, dumped by `tools/genio.py`), an interpreter for the part of Python they use (`Py/Io`); a stream is identified with the file behind it, one to read and one to write; objects are made and called by the interpreter of C77 on the streams of these trees (`world` in `Spec/IoFactory`); the contents of files are a parameter | each method run statement by statement (`Proof/Io`), the table of C77 row by row (`Proof/IoTable`), the factory with `C77_construct` for each class (`Proof/IoFactory`, `Proof/IoDecoders`); no type is left out; the claims C19, C20, C21, C23, C56, C57 and C60 about the factory carried over to the trees (`received` in `Spec/IoReceived`, `Props/IoFactory`) |
| C80 | the trees, interpreter and encodings of C77; the list of derived attributes with their values in the fields of the model's objects is `Spec/SourceDerived`, written by `tools/gensourceprop.py`; `C80_all` says that it leaves out no property of the 166 classes | each method is one `return`, run symbolically for all objects (`Proof/SourceDerived1`); sizes by running `marshalledSize` and `serialize` of the source and C58. `DirectedEnergyAreaAimpoint`'s and `LinearObjectStatePdu`'s counts (their classes are not in the catalogue of C77) are `C80_area_counts` and `C80_segments`. Not compared: the abstract stubs of `Record` and `VariableRecord` |

Violated properties: the negation is proved with a witness and the largest true part is kept as a
theorem named `..._partial`; see "Disagreements" below.

## Layout of the development

* `Verif/Py`, `Verif/Stream.lean`, `Verif/Model`, `Verif/Geo`: the model. Every definition cites the lines
  it models.
* `Verif/Spec`: what the theorems are stated with (positions of fields, nearest binary32, the layout and
  count tables, rotation matrices, the ellipsoid, the zone and band tables of UTM, the type numbers of the
  standard). Independent of the model's helpers.
* `Verif/Proof`: lemmas. `Verif/Props`: the property theorems `Cxx_...`, each with a concrete case beside it.
* `Spec/Catalog.lean` lists the 166 record and PDU classes with a uniform interface (`serialize`, `parse`,
  a fresh object); theorems "for all classes" quantify over it. `AnyPdu` is the sum of all concrete PDU
  classes, the result type of `createPdu`.
* `tools/` holds the generators of the generated modules. `gen.py` reads the Python source; the others
  produce proofs and statements, which Lean checks. Generated modules are committed.
* `Verif/Validation.lean` decodes the six recorded messages of /repo/tests with the model and checks what the
  unit tests assert, by evaluation. These are tests of the transcription, not proofs. `ArithValidation.lean`
  compares the modelled arithmetic with that of the machine on pseudo-random doubles.
* `tools/mutate` holds the mutation testing scripts, `seeded/LOG.jsonl` the results. An edit is made in a scratch
  copy, every module that depends on it is elaborated again with failed proofs left open, and the property
  theorems that then rest on an open proof are the ones that failed. Edits to the syntax trees were built in
  batches, one edit per method: there a failed lemma is assigned to an edit by the name of the method it is
  about (`batch` in the log). Some edits were built only up to the first module that failed; the log then names
  the lemmas of that module.

## Disagreements between the code and the properties

Each is proved as a theorem about the model.

Streams and records

* `write_uint64`/`read_uint64` return negative numbers from 2^63 on; `write_char8`/`read_char8` never agree
  (C07).
* Header: the `length` attribute is sent as it stands, nothing computes it (C14).
* `EngineFuel`, `AngularVelocityVector`, `AggregateMarking`, `DataQueryPdu` discard constructor arguments;
  `AttachedParts`, `Environment`, `EnvironmentGeneral`, `SilentAggregateSystem`, `SeparationVP` and
  `DirectedEnergyFirePdu` objects cannot be sent (C49).
* `PduSuperclass.__init__` tests `pduType` where it should test `protocolFamily`: a family without a type is
  ignored, a type without a family removes the family of the class (C50).
* Several parse methods call the undefined `null()`: they decode only messages whose counts are zero (C23).
* Entity markings are read as signed bytes: a received marking with a byte of 128 or more has no text,
  `charactersString` raises `ValueError` (C29).
* `FastEntityStatePdu` carries type 1 and a signed count; a sent one is decoded as an `EntityStatePdu`.
* `IFFData`, `IFFDataSpecification`, `RecordSpecification`, `ResupplyReceivedPdu`, `SeesPdu`,
  `DirectedEnergyFirePdu`, `EntityDamageStatusPdu`: parse cannot read every list that serialize writes (C08).

* A `parse` that raises leaves its object changed: fields read before the exception are overwritten, list
  elements read before stay and appear again in front of those of the next message (C59).

Transmitter

* Frequencies from 2^63 on, unknown antenna pattern kinds, any variable record and empty modulation
  parameters do not come back (C26). No standard-variable record is read back as written, because the
  reader takes the first payload bytes as padding (C27).

* Every standard variable record writes more bytes than the `recordLength` it announces: 2 more for the
  radio record, 12 for an area aimpoint, 8 for the others (C58).

Factory

* Entry 6 names `CollisionElasticPdu`, entry 41 `PointObjectStatePdu` (C22). Messages 30, 53, 65 and 68 are
  silently dropped although classes for them exist; `RecordQueryReliablePdu` carries 63, the number of the
  Record-R message (C51).

Examples

* `dis_receiver.py` shows the roll as "Yaw" and the yaw as "Roll" (C61). One datagram of an unknown type, an
  entity with 56 variable parameters, or one without a location ends it.

Data

* `SignalPdu`-style data alignment fails for lengths that are no whole number of bytes (C30).

Geometry

* `ecef2lla` raises ValueError for points more than 77,500 km off the equatorial plane, and stops early
  near the surface so that its accuracy does not follow the tolerance (C39). In doubles it raises `ValueError` within
  1e-12 m of the axis, although a point on the axis is accepted (C71).
* In the gimbal-lock branch the dead-reckoned Euler angles freeze one axis (C36).
* `lla2utm` gives zone 61 at 180° and does not extend band X to 84° (C42); southern northings carry no false
  northing (C46).

* In doubles, dead reckoning in two steps may differ in the last place from one step of twice the time; over ℝ
  it does not (C34, C62).

Robustness

* A decoded message of type 69 (or 25 with radio records) is longer when it is sent on (C57): each record is
  written with its header twice.
* A short buffer raises ValueError instead of struct.error at a bit field (C56).

Names that differ from the standard (no theorem; attributes are modelled under the name in the code):
`orginatingEntityID`, `requiredReliablityService`, `azimuthalBeamwidthHorizontal`, `communcationsNodeType`,
`fuelMeasurmentUnits`, `commulativeShotTime`.
