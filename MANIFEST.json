{
 "claims": [
  {
   "property": "C01",
   "status": "proved",
   "theorems": [
    "Dis.C01_boolean_survives",
    "Dis.C01_integers_survive"
   ],
   "note": "Every pair of an integer write method and its read method (list intPairs), and write_boolean/read_boolean."
  },
  {
   "property": "C02",
   "status": "proved",
   "theorems": [
    "Dis.C02_in_range_accepted",
    "Dis.C02_out_of_range_rejected"
   ],
   "note": ""
  },
  {
   "property": "C03",
   "status": "proved",
   "theorems": [
    "Dis.C03_boolean",
    "Dis.C03_network_byte_order",
    "Dis.C03_reading"
   ],
   "note": ""
  },
  {
   "property": "C04",
   "status": "proved",
   "theorems": [
    "Dis.C04_binary32_exact",
    "Dis.C04_double",
    "Dis.C04_float_nearest",
    "Dis.C04_float_overflow",
    "Dis.C04_infinity",
    "Dis.C04_nan",
    "Dis.C04_pattern_preserved",
    "Dis.C04_second_trip"
   ],
   "note": "Values are exact integers in units of 2^-1074; nearest with ties to even against every finite binary32."
  },
  {
   "property": "C05",
   "status": "proved",
   "theorems": [
    "Dis.C05_no_fabricated_integers",
    "Dis.C05_no_fabricated_others",
    "Dis.C05_reads_succeed"
   ],
   "note": ""
  },
  {
   "property": "C06",
   "status": "proved",
   "theorems": [
    "Dis.C06_read_bytes_short",
    "Dis.C06_read_utf_truncated",
    "Dis.C06_utf_survives",
    "Dis.C06_utf_too_long"
   ],
   "note": ""
  },
  {
   "property": "C07",
   "status": "partial",
   "theorems": [
    "Dis.C07_char8_violated",
    "Dis.C07_uint64_partial",
    "Dis.C07_uint64_violated"
   ],
   "note": "The code violates the full statement (def C07_uint64_round_trips): write_uint64/read_uint64 return a negative number from 2^63 on (C07_uint64_violated); the partial theorem covers the lower half and the exact wrong value above. write_char8/read_char8 never agree (C07_char8_violated)."
  },
  {
   "property": "C08",
   "status": "proved",
   "theorems": [
    "Dis.C08_exact",
    "Dis.C08_round_trip",
    "Dis.C08_same_wire_fields"
   ],
   "note": "All 166 classes of the catalogue (Spec/Catalog.lean); Decodable restricts IFFData, IFFDataSpecification, RecordSpecification, ResupplyReceivedPdu, SeesPdu, DirectedEnergyFirePdu and EntityDamageStatusPdu to the objects whose lists parse can read. TransmitterPdu is C26, the standard variable records are C27, IntercomControlPdu and LinearObjectStatePdu are C23."
  },
  {
   "property": "C09",
   "status": "proved",
   "theorems": [
    "Dis.C09_back_to_back",
    "Dis.C09_consumes_exactly",
    "Dis.C09_sequence"
   ],
   "note": "All classes of the catalogue."
  },
  {
   "property": "C10",
   "status": "proved",
   "theorems": [
    "Dis.C10_accepted_prefix_free",
    "Dis.C10_truncation_detected"
   ],
   "note": "All classes of the catalogue. The records with free-length data (UnknownRadio, UnknownAntennaPattern, UnknownStandardVariableRecord) are outside it: they use read_bytes, which does short reads (C06)."
  },
  {
   "property": "C11",
   "status": "proved",
   "theorems": [
    "Dis.C11_reserialize",
    "Dis.C11_stable"
   ],
   "note": "All classes of the catalogue; lossless and Live name the classes that drop padding bits or cannot re-serialize."
  },
  {
   "property": "C12",
   "status": "proved",
   "theorems": [
    "Dis.C12_raises_iff",
    "Dis.C12_succeeds_iff_fits"
   ],
   "note": "All classes of the catalogue."
  },
  {
   "property": "C13",
   "status": "proved",
   "theorems": [
    "Dis.C13_known_sizes",
    "Dis.C13_size"
   ],
   "note": "All classes of the catalogue."
  },
  {
   "property": "C14",
   "status": "proved",
   "theorems": [
    "Dis.C14_header"
   ],
   "note": "All 68 concrete PDU classes: the twelve header bytes at their offsets hold the header attributes, as the attributes are at the time of the call (the length attribute is not computed)."
  },
  {
   "property": "C15",
   "status": "proved",
   "theorems": [
    "Dis.C15_aggregate_state",
    "Dis.C15_counts_tell_the_truth",
    "Dis.C15_too_long_raises"
   ],
   "note": "Every count field of every class of the catalogue, and the second count of AggregateStatePdu."
  },
  {
   "property": "C16",
   "status": "proved",
   "theorems": [
    "Dis.C16_distinct_encodings"
   ],
   "note": "All classes of the catalogue."
  },
  {
   "property": "C17",
   "status": "proved",
   "theorems": [
    "Dis.C17_failed_serialize_prefix",
    "Dis.C17_output_left_behind"
   ],
   "note": "All classes of the catalogue."
  },
  {
   "property": "C18",
   "status": "proved",
   "theorems": [
    "Dis.C18_entity_state",
    "Dis.C18_k_times",
    "Dis.C18_lists_are_appended"
   ],
   "note": "All classes of the catalogue."
  },
  {
   "property": "C19",
   "status": "proved",
   "theorems": [
    "Dis.C19_no_other_byte",
    "Dis.C19_type_byte_decides"
   ],
   "note": "Every byte string and every type byte."
  },
  {
   "property": "C20",
   "status": "proved",
   "theorems": [
    "Dis.C20_position_ignored"
   ],
   "note": "createPdu/getPdu start from the beginning of the bytes whatever they held before."
  },
  {
   "property": "C21",
   "status": "proved",
   "theorems": [
    "Dis.C21_factory_round_trip",
    "Dis.C21_registered",
    "Dis.C21_truncated"
   ],
   "note": "Holds for the registered classes. Classes the table does not register under their own type: ResupplyOfferPdu, FastEntityStatePdu, StartResumeReliablePdu, DirectedEnergyFirePdu, SeesPdu."
  },
  {
   "property": "C22",
   "status": "partial",
   "theorems": [
    "Dis.C22_exceptions",
    "Dis.C22_resupply_offer",
    "Dis.C22_unique_partial"
   ],
   "note": "Violated by the code: entry 6 names CollisionElasticPdu (type 66) and entry 41 names PointObjectStatePdu (type 43); C22_exceptions shows that these two are the only ones. FastEntityStatePdu carries type 1, the type of EntityStatePdu, so uniqueness is proved for the other classes."
  },
  {
   "property": "C23",
   "status": "proved",
   "theorems": [
    "Dis.C23_intercom_control",
    "Dis.C23_linear_object",
    "Dis.C23_unreadable_lists"
   ],
   "note": "The parse methods that call the undefined null() decode exactly the messages whose announced counts are zero."
  },
  {
   "property": "C24",
   "status": "proved",
   "theorems": [
    "Dis.C24_independent",
    "Dis.C24_no_unused_bits",
    "Dis.C24_packs",
    "Dis.C24_position",
    "Dis.C24_round_trip"
   ],
   "note": "All declarations bitfield() accepts, all values, also negative and out of range. The layout ctypes gives a big-endian structure is part of the trusted reading (DESIGN.md)."
  },
  {
   "property": "C25",
   "status": "proved",
   "theorems": [
    "Dis.C25_accepts",
    "Dis.C25_bitfield_classes",
    "Dis.C25_rejects",
    "Dis.C25_twenty_four"
   ],
   "note": "All field lists, including fields of another type and widths that are no int."
  },
  {
   "property": "C26",
   "status": "partial",
   "theorems": [
    "Dis.C26_empty_modulation",
    "Dis.C26_exact_partial",
    "Dis.C26_high_frequency",
    "Dis.C26_records",
    "Dis.C26_round_trip_partial",
    "Dis.C26_truncated",
    "Dis.C26_unknown_antenna"
   ],
   "note": "Round trip, exact consumption and truncation are proved for decodable transmitters (frequency below 2^63, known antenna pattern, no variable records). The code violates the full statement: separate theorems prove that larger frequencies, unknown antenna pattern kinds, any record, and empty modulation parameters do not come back."
  },
  {
   "property": "C27",
   "status": "partial",
   "theorems": [
    "Dis.C27_conforming_partial",
    "Dis.C27_damage_status",
    "Dis.C27_differs",
    "Dis.C27_directed_energy_fire",
    "Dis.C27_length_as_padding",
    "Dis.C27_never_read_back"
   ],
   "note": "The code violates the statement: the reader takes the first payload bytes as padding, so no standard-variable record is read back as written. The negation is proved for every known record class; the reader is proved correct on the conforming layout."
  },
  {
   "property": "C28",
   "status": "proved",
   "theorems": [
    "Dis.C28_dispatch",
    "Dis.C28_reader"
   ],
   "note": "Dispatch by record type of the standard-variable reader, for every type number."
  },
  {
   "property": "C29",
   "status": "proved",
   "theorems": [
    "Dis.C29_decoding",
    "Dis.C29_not_ascii",
    "Dis.C29_not_ascii_text",
    "Dis.C29_over_the_wire",
    "Dis.C29_received",
    "Dis.C29_short_list",
    "Dis.C29_short_text",
    "Dis.C29_text",
    "Dis.C29_twelve_bytes"
   ],
   "note": "setString, charactersString (with a strict UTF-8 decoder) and the twelve wire bytes."
  },
  {
   "property": "C30",
   "status": "proved",
   "theorems": [
    "Dis.C30_aligned",
    "Dis.C30_bytes",
    "Dis.C30_misaligned",
    "Dis.C30_padding_skipped",
    "Dis.C30_too_long"
   ],
   "note": "Alignment for whole-byte lengths; for every other length C30_misaligned proves it fails."
  },
  {
   "property": "C31",
   "status": "proved",
   "theorems": [
    "Dis.C31_carried",
    "Dis.C31_too_long"
   ],
   "note": ""
  },
  {
   "property": "C32",
   "status": "proved",
   "theorems": [
    "Dis.C32_cross",
    "Dis.C32_elementary",
    "Dis.C32_isometry",
    "Dis.C32_rotation",
    "Dis.C32_skew"
   ],
   "note": "over the reals; rotation matrix = Rz Ry Rx, orthogonal, det 1; skew matrix acts as the cross product"
  },
  {
   "property": "C33",
   "status": "proved",
   "theorems": [
    "Dis.C33_zero"
   ],
   "note": "all nine models"
  },
  {
   "property": "C34",
   "status": "proved",
   "theorems": [
    "Dis.C34_fpb",
    "Dis.C34_fpw",
    "Dis.C34_fvb",
    "Dis.C34_fvw",
    "Dis.C34_rotating_position",
    "Dis.C34_velocity"
   ],
   "note": "fixed-orientation models in full; positions of the rotating world-frame models too"
  },
  {
   "property": "C35",
   "status": "proved",
   "theorems": [
    "Dis.C35_distance",
    "Dis.C35_level",
    "Dis.C35_no_acceleration",
    "Dis.C35_no_rotation",
    "Dis.C35_velocity"
   ],
   "note": "four consistency laws"
  },
  {
   "property": "C36",
   "status": "proved",
   "theorems": [
    "Dis.C36_all_rotating",
    "Dis.C36_angular_velocity",
    "Dis.C36_gimbal_lock",
    "Dis.C36_gimbal_lock_frozen",
    "Dis.C36_pitch",
    "Dis.C36_unique"
   ],
   "note": "derivative of the attitude at dt = 0 is the given body angular velocity, uniqueness, gimbal-lock branch"
  },
  {
   "property": "C37",
   "status": "proved",
   "theorems": [
    "Dis.C37_frame",
    "Dis.C37_inverse",
    "Dis.C37_isometry",
    "Dis.C37_meaning",
    "Dis.C37_origin",
    "Dis.C37_same_domain"
   ],
   "note": "for every origin for which ecef2lla returns; inverse as an equivalence, same failures otherwise"
  },
  {
   "property": "C38",
   "status": "proved",
   "theorems": [
    "Dis.C38_altitude",
    "Dis.C38_distance",
    "Dis.C38_ellipsoid",
    "Dis.C38_equator",
    "Dis.C38_every_point",
    "Dis.C38_normal",
    "Dis.C38_periodic",
    "Dis.C38_poles",
    "Dis.C38_unique"
   ],
   "note": "On the ellipsoid, along the normal, periodic, poles and equator; every point at least 50 km from the centre has coordinates, unique off the axis, and the altitude is the distance from the ellipsoid."
  },
  {
   "property": "C39",
   "status": "partial",
   "theorems": [
    "Dis.C39_accuracy",
    "Dis.C39_centre",
    "Dis.C39_converges",
    "Dis.C39_fixed_point",
    "Dis.C39_fixed_point_only",
    "Dis.C39_longitude",
    "Dis.C39_near_ellipsoid",
    "Dis.C39_poles",
    "Dis.C39_raises_far",
    "Dis.C39_returns_partial",
    "Dis.C39_stops_early"
   ],
   "note": "Longitude exact, poles, centre, fixed point both ways, convergence and accuracy proved; \"raises only at the centre\" is false (C39_raises_far) and C39_returns_partial covers points at least 638 km from the centre and at most 76500 km from the equatorial plane; C39_stops_early shows the accuracy does not follow the tolerance."
  },
  {
   "property": "C40",
   "status": "proved",
   "theorems": [
    "Dis.C40_add",
    "Dis.C40_angle",
    "Dis.C40_axis",
    "Dis.C40_elementary",
    "Dis.C40_inverse",
    "Dis.C40_rotation"
   ],
   "note": ""
  },
  {
   "property": "C41",
   "status": "proved",
   "theorems": [
    "Dis.C41_ecef2llarpy",
    "Dis.C41_llarpy2ecef",
    "Dis.C41_returns",
    "Dis.C41_round_trip",
    "Dis.C41_round_trip_ecef"
   ],
   "note": "both conversions describe the same attitude relative to the local frame; round trips under exact position recovery"
  },
  {
   "property": "C42",
   "status": "proved",
   "theorems": [
    "Dis.C42_antimeridian",
    "Dis.C42_band_X_not_extended",
    "Dis.C42_letter",
    "Dis.C42_no_band",
    "Dis.C42_norway",
    "Dis.C42_number",
    "Dis.C42_svalbard",
    "Dis.C42_within"
   ],
   "note": "zone number and band letter, with the two deviations (zone 61 at 180 degrees, band X not extended)"
  },
  {
   "property": "C43",
   "status": "proved",
   "theorems": [
    "Dis.C43_distance",
    "Dis.C43_inverse",
    "Dis.C43_lengths",
    "Dis.C43_linear",
    "Dis.C43_metric"
   ],
   "note": ""
  },
  {
   "property": "C44",
   "status": "proved",
   "theorems": [
    "Dis.C44_ecef",
    "Dis.C44_spherical",
    "Dis.C44_unique"
   ],
   "note": ""
  },
  {
   "property": "C45",
   "status": "proved",
   "theorems": [
    "Dis.C45_wire_layout"
   ],
   "note": "All classes of the catalogue: order, width, signedness and content of each field."
  },
  {
   "property": "C46",
   "status": "proved",
   "theorems": [
    "Dis.C46_altitude",
    "Dis.C46_central",
    "Dis.C46_ecef",
    "Dis.C46_mirror",
    "Dis.C46_north",
    "Dis.C46_south"
   ],
   "note": ""
  },
  {
   "property": "C47",
   "status": "proved",
   "theorems": [
    "Dis.C47_AcknowledgePdu",
    "Dis.C47_AcknowledgeReliablePdu",
    "Dis.C47_ActionRequestPdu",
    "Dis.C47_ActionRequestReliablePdu",
    "Dis.C47_ActionResponsePdu",
    "Dis.C47_ActionResponseReliablePdu",
    "Dis.C47_AggregateStatePdu",
    "Dis.C47_ArealObjectStatePdu",
    "Dis.C47_CollisionElasticPdu",
    "Dis.C47_CollisionPdu",
    "Dis.C47_CommentPdu",
    "Dis.C47_CommentReliablePdu",
    "Dis.C47_CreateEntityPdu",
    "Dis.C47_CreateEntityReliablePdu",
    "Dis.C47_DataPdu",
    "Dis.C47_DataQueryPdu",
    "Dis.C47_DataQueryReliablePdu",
    "Dis.C47_DataReliablePdu",
    "Dis.C47_DesignatorPdu",
    "Dis.C47_DetonationPdu",
    "Dis.C47_ElectromagneticEmissionsPdu",
    "Dis.C47_EntityDamageStatusPdu",
    "Dis.C47_EntityStatePdu",
    "Dis.C47_EntityStateUpdatePdu",
    "Dis.C47_EventReportPdu",
    "Dis.C47_EventReportReliablePdu",
    "Dis.C47_FastEntityStatePdu",
    "Dis.C47_FirePdu",
    "Dis.C47_IntercomSignalPdu",
    "Dis.C47_IsPartOfPdu",
    "Dis.C47_MinefieldResponseNackPdu",
    "Dis.C47_MinefieldStatePdu",
    "Dis.C47_PointObjectStatePdu",
    "Dis.C47_ReceiverPdu",
    "Dis.C47_RecordQueryReliablePdu",
    "Dis.C47_RemoveEntityPdu",
    "Dis.C47_RemoveEntityReliablePdu",
    "Dis.C47_RepairCompletePdu",
    "Dis.C47_RepairResponsePdu",
    "Dis.C47_ResupplyOfferPdu",
    "Dis.C47_ResupplyReceivedPdu",
    "Dis.C47_SeesPdu",
    "Dis.C47_ServiceRequestPdu",
    "Dis.C47_SetDataPdu",
    "Dis.C47_SetDataReliablePdu",
    "Dis.C47_SignalPdu",
    "Dis.C47_StartResumePdu",
    "Dis.C47_StartResumeReliablePdu",
    "Dis.C47_StopFreezePdu",
    "Dis.C47_StopFreezeReliablePdu",
    "Dis.C47_UaPdu"
   ],
   "note": "51 PDU constructors. Canon: float attributes sent as binary32 are binary32 values; unregistered classes go through parse of the class. TransmitterPdu is C26; DirectedEnergyFirePdu, DataQueryPdu: C49."
  },
  {
   "property": "C48",
   "status": "proved",
   "theorems": [
    "Dis.C48_AcousticEmitter",
    "Dis.C48_AggregateIdentifier",
    "Dis.C48_AggregateMarking",
    "Dis.C48_AggregateType",
    "Dis.C48_AngleDeception",
    "Dis.C48_AntennaLocation",
    "Dis.C48_ArticulatedParts",
    "Dis.C48_Association",
    "Dis.C48_Attribute",
    "Dis.C48_BasicHaveQuickMP",
    "Dis.C48_BeamAntennaPattern",
    "Dis.C48_BeamData",
    "Dis.C48_BeamStatus",
    "Dis.C48_BlankingSector",
    "Dis.C48_CCTTSincgarsMP",
    "Dis.C48_ClockTime",
    "Dis.C48_CommunicationsNodeID",
    "Dis.C48_DEFireFlags",
    "Dis.C48_DataFilterRecord",
    "Dis.C48_DataQueryDatumSpecification",
    "Dis.C48_DatumSpecification",
    "Dis.C48_DeadReckoningParameters",
    "Dis.C48_DirectedEnergyTargetEnergyDeposition",
    "Dis.C48_EEFundamentalParameterData",
    "Dis.C48_EmissionSystemBeamRecord",
    "Dis.C48_EmissionSystemRecord",
    "Dis.C48_EmitterSystem",
    "Dis.C48_EngineFuelReload",
    "Dis.C48_EntityAssociation",
    "Dis.C48_EntityIdentifier",
    "Dis.C48_EntityMarking",
    "Dis.C48_EntityType",
    "Dis.C48_EntityTypeVP",
    "Dis.C48_EnvironmentType",
    "Dis.C48_EulerAngles",
    "Dis.C48_EventIdentifier",
    "Dis.C48_EventIdentifierLiveEntity",
    "Dis.C48_Expendable",
    "Dis.C48_ExpendableDescriptor",
    "Dis.C48_ExpendableReload",
    "Dis.C48_ExplosionDescriptor",
    "Dis.C48_FalseTargetsAttribute",
    "Dis.C48_FixedDatum",
    "Dis.C48_FundamentalOperationalData",
    "Dis.C48_GridAxis",
    "Dis.C48_GridAxisDescriptorVariable",
    "Dis.C48_GroupID",
    "Dis.C48_IFFData",
    "Dis.C48_IFFDataSpecification",
    "Dis.C48_IFFFundamentalParameterData",
    "Dis.C48_IOCommunicationsNode",
    "Dis.C48_IOEffect",
    "Dis.C48_IntercomCommunicationsParameters",
    "Dis.C48_IntercomIdentifier",
    "Dis.C48_JammingTechnique",
    "Dis.C48_LaunchedMunitionRecord",
    "Dis.C48_LayerHeader",
    "Dis.C48_LinearSegmentParameter",
    "Dis.C48_LiveEntityIdentifier",
    "Dis.C48_LiveSimulationAddress",
    "Dis.C48_MineEntityIdentifier",
    "Dis.C48_MinefieldIdentifier",
    "Dis.C48_MinefieldSensorType",
    "Dis.C48_ModulationType",
    "Dis.C48_Munition",
    "Dis.C48_MunitionDescriptor",
    "Dis.C48_MunitionReload",
    "Dis.C48_NamedLocationIdentification",
    "Dis.C48_NetId",
    "Dis.C48_ObjectIdentifier",
    "Dis.C48_ObjectType",
    "Dis.C48_OwnershipStatus",
    "Dis.C48_PduHeader",
    "Dis.C48_PduStatus",
    "Dis.C48_PropulsionSystemData",
    "Dis.C48_ProtocolMode",
    "Dis.C48_RadioIdentifier",
    "Dis.C48_RadioType",
    "Dis.C48_RecordQuerySpecification",
    "Dis.C48_RecordSpecificationElement",
    "Dis.C48_Relationship",
    "Dis.C48_RequestID",
    "Dis.C48_SecondaryOperationalData",
    "Dis.C48_Sensor",
    "Dis.C48_SilentEntitySystem",
    "Dis.C48_SimulationAddress",
    "Dis.C48_SimulationIdentifier",
    "Dis.C48_SimulationManagementPduHeader",
    "Dis.C48_SpreadSpectrum",
    "Dis.C48_StorageFuel",
    "Dis.C48_StorageFuelReload",
    "Dis.C48_SupplyQuantity",
    "Dis.C48_SystemIdentifier",
    "Dis.C48_TotalRecordSets",
    "Dis.C48_TrackJamData",
    "Dis.C48_UAFundamentalParameter",
    "Dis.C48_UnattachedIdentifier",
    "Dis.C48_UnsignedDISInteger",
    "Dis.C48_VariableDatum",
    "Dis.C48_VariableParameter",
    "Dis.C48_Vector2Float",
    "Dis.C48_Vector3Float",
    "Dis.C48_VectoringNozzleSystem",
    "Dis.C48_WorldCoordinates"
   ],
   "note": "104 record constructors; those that lose arguments or cannot be sent are C49."
  },
  {
   "property": "C49",
   "status": "proved",
   "theorems": [
    "Dis.C49_arguments_lost",
    "Dis.C49_lists_unsendable",
    "Dis.C49_unsendable"
   ],
   "note": "A defect list: the negation of C47/C48 for these classes, for all arguments."
  },
  {
   "property": "C50",
   "status": "partial",
   "theorems": [
    "Dis.C50_family_ignored",
    "Dis.C50_header_sent_partial",
    "Dis.C50_type_alone_unsendable",
    "Dis.C50_type_required"
   ],
   "note": "Violated (C50_family_ignored): a protocolFamily passed without a pduType is ignored, and a pduType passed without a protocolFamily replaces the family of the class by None, which cannot be sent (C50_type_alone_unsendable). C50_header_sent_partial states exactly what is sent in every case."
  },
  {
   "property": "C51",
   "status": "partial",
   "theorems": [
    "Dis.C51_decoded_partial",
    "Dis.C51_exceptions",
    "Dis.C51_misread"
   ],
   "note": "Violated (C51_exceptions): RecordQueryReliablePdu carries 63 instead of 65; four more classes are not decoded under their number; C51_decoded_partial covers all others."
  },
  {
   "property": "C52",
   "status": "proved",
   "theorems": [
    "Dis.C52_east",
    "Dis.C52_north",
    "Dis.C52_up"
   ],
   "note": "Derivatives of lla2ecef along latitude, longitude and altitude."
  },
  {
   "property": "C53",
   "status": "proved",
   "theorems": [
    "Dis.C53_difference",
    "Dis.C53_offset",
    "Dis.C53_plain",
    "Dis.C53_raises"
   ],
   "note": "All origins; parts that are not numbers are not modelled."
  },
  {
   "property": "C54",
   "status": "proved",
   "theorems": [
    "Dis.C54_grows",
    "Dis.C54_range"
   ],
   "note": "Argument in radians, unlike the rest of the API."
  },
  {
   "property": "C55",
   "status": "proved",
   "theorems": [
    "Dis.C55_conformal",
    "Dis.C55_length"
   ],
   "note": "Meridian length, conformality and scale factor with explicit error bounds; over the reals."
  },
  {
   "property": "C56",
   "status": "proved",
   "theorems": [
    "Dis.C56_exceptions",
    "Dis.C56_only"
   ],
   "note": "Both directions for all 256 type bytes; the witnesses of the 'some message' direction are evaluated by the kernel."
  },
  {
   "property": "C57",
   "status": "proved",
   "theorems": [
    "Dis.C57_bytes_read",
    "Dis.C57_damage_message",
    "Dis.C57_growth",
    "Dis.C57_not_all",
    "Dis.C57_resend"
   ],
   "note": "Over the catalogue of 166 classes and all classes of the factory; the two exceptions are refuted by a witness and bounded (C57_not_all, C57_growth)."
  },
  {
   "property": "C58",
   "status": "partial",
   "theorems": [
    "Dis.C58_bitfields",
    "Dis.C58_common",
    "Dis.C58_parts",
    "Dis.C58_records_never",
    "Dis.C58_records_partial",
    "Dis.C58_records_violated",
    "Dis.C58_transmitter"
   ],
   "note": "Proved for all common, radio, bit-field and warfare part records and for the two lengths of the Transmitter PDU; violated by every standard variable record (C58_records_never), whose excess C58_records_partial states exactly."
  },
  {
   "property": "C59",
   "status": "proved",
   "theorems": [
    "Dis.C59_agrees",
    "Dis.C59_catalog",
    "Dis.C59_ends",
    "Dis.C59_intercom",
    "Dis.C59_kinds",
    "Dis.C59_leftovers",
    "Dis.C59_reuse",
    "Dis.C59_reuse_violated",
    "Dis.C59_since",
    "Dis.C59_transmitter",
    "Dis.C59_unchanged_violated"
   ],
   "note": "A raising parse does not leave its object unchanged (C59_unchanged_violated), and C59_reuse fails for classes with lists (C59_reuse_violated). IntercomControlPdu and TransmitterPdu, outside the catalogue, have their own theorems."
  },
  {
   "property": "C60",
   "status": "proved",
   "theorems": [
    "Dis.C60_first_12_bytes",
    "Dis.C60_header",
    "Dis.C60_type"
   ],
   "note": ""
  },
  {
   "property": "C61",
   "status": "partial",
   "theorems": [
    "Dis.C61_display_partial",
    "Dis.C61_display_violated",
    "Dis.C61_entity",
    "Dis.C61_entity_too_long",
    "Dis.C61_killed",
    "Dis.C61_loop",
    "Dis.C61_no_location",
    "Dis.C61_position",
    "Dis.C61_raises",
    "Dis.C61_sender",
    "Dis.C61_shown_as"
   ],
   "note": "The labels Yaw and Roll of the receiver are exchanged: C61_display_violated is the counterexample, C61_display_partial states what is shown. C61_position is about exact real numbers, as all of the geometry."
  },
  {
   "property": "C62",
   "status": "proved",
   "theorems": [
    "Dis.C62_compose_violated",
    "Dis.C62_difference",
    "Dis.C62_difference_self",
    "Dis.C62_fpw",
    "Dis.C62_fvw",
    "Dis.C62_fvw_raises",
    "Dis.C62_monotone",
    "Dis.C62_no_time",
    "Dis.C62_product",
    "Dis.C62_product_comm",
    "Dis.C62_product_infinite",
    "Dis.C62_product_nan",
    "Dis.C62_product_sign",
    "Dis.C62_quotient",
    "Dis.C62_quotient_limits",
    "Dis.C62_quotient_nan",
    "Dis.C62_quotient_nearest",
    "Dis.C62_quotient_sign",
    "Dis.C62_rpw",
    "Dis.C62_rvw",
    "Dis.C62_steps",
    "Dis.C62_sum",
    "Dis.C62_sum_comm",
    "Dis.C62_sum_infinite",
    "Dis.C62_sum_nan",
    "Dis.C62_sum_overflow",
    "Dis.C62_sum_zero"
   ],
   "note": "Rounding errors, bit-for-bit agreement, monotonicity and accumulated error for positions computed in doubles; accuracy of dt ** 2 is a hypothesis on the platform."
  },
  {
   "property": "C63",
   "status": "proved",
   "theorems": [
    "Dis.C63_centimetre",
    "Dis.C63_extrapolated",
    "Dis.C63_raises"
   ],
   "note": "End to end: serialize, createPdu, drm_rvw in doubles; accuracy of dt ** 2 is a hypothesis on the platform."
  },
  {
   "property": "C64",
   "status": "proved",
   "theorems": [
    "Dis.C64_fpb",
    "Dis.C64_fvb",
    "Dis.C64_matrix",
    "Dis.C64_orthonormal",
    "Dis.C64_raises",
    "Dis.C64_rotating"
   ],
   "note": "Accuracy of cos, sin, R @ v and dt ** 2 are hypotheses on the platform, met by a reference platform."
  },
  {
   "property": "C65",
   "status": "proved",
   "theorems": [
    "Dis.C65_gimbal",
    "Dis.C65_no_time",
    "Dis.C65_raises",
    "Dis.C65_regular",
    "Dis.C65_same"
   ],
   "note": "Accuracy of cos, sin and tan is a hypothesis on the platform, met by a reference platform."
  },
  {
   "property": "C66",
   "status": "proved",
   "theorems": [
    "Dis.C66_assign",
    "Dis.C66_assign_other",
    "Dis.C66_catalog",
    "Dis.C66_disjoint",
    "Dis.C66_empty_list_violated",
    "Dis.C66_give",
    "Dis.C66_new",
    "Dis.C66_outside",
    "Dis.C66_parse",
    "Dis.C66_parse_other",
    "Dis.C66_read",
    "Dis.C66_serialize",
    "Dis.C66_shared_violated"
   ],
   "note": "Programs that put one object in two places are excluded by the statement; C66_shared_violated and C66_empty_list_violated show what happens then. All 166 classes of the catalogue and TransmitterPdu and IntercomControlPdu (C66_catalog); constructor calls with arguments are modelled but only those without arguments occur in the programs of the theorem."
  },
  {
   "property": "C67",
   "status": "proved",
   "theorems": [
    "Dis.C67_others",
    "Dis.C67_outcome",
    "Dis.C67_pdu",
    "Dis.C67_raises",
    "Dis.C67_receiver",
    "Dis.C67_serialize"
   ],
   "note": "createAll is user code (a receiver that keeps its PDUs); sockets and the file variant of the factory are not part of it."
  },
  {
   "property": "C68",
   "status": "proved",
   "theorems": [
    "Dis.C68_assign",
    "Dis.C68_exact",
    "Dis.C68_float_as_int",
    "Dis.C68_nearest",
    "Dis.C68_serialize",
    "Dis.C68_single_violated",
    "Dis.C68_too_large"
   ],
   "note": "C68_serialize on the memory model of C66 for all catalogue classes; conversion proved nearest; struct.error cases for coordinate records and simulation addresses; double rounding shown by a witness"
  },
  {
   "property": "C69",
   "status": "proved",
   "theorems": [
    "Dis.C69_attribute",
    "Dis.C69_attribute_other",
    "Dis.C69_beam_state",
    "Dis.C69_catalog",
    "Dis.C69_copied",
    "Dis.C69_default",
    "Dis.C69_ignored_lost_violated",
    "Dis.C69_ignored_violated",
    "Dis.C69_names",
    "Dis.C69_new",
    "Dis.C69_others",
    "Dis.C69_serialize",
    "Dis.C69_unknown"
   ],
   "note": "Objects given to a constructor must be the program's own (not shared); sharing is shown by witnesses (C66_shared_violated). Ignored parameters are recorded in C69_ignored_violated and C69_ignored_lost_violated."
  },
  {
   "property": "C70",
   "status": "proved",
   "theorems": [
    "Dis.C70_deg2rad",
    "Dis.C70_ellipsoid",
    "Dis.C70_infinite",
    "Dis.C70_lla2ecef",
    "Dis.C70_lla2gcc",
    "Dis.C70_rad2deg",
    "Dis.C70_round_trip",
    "Dis.C70_sqrt",
    "Dis.C70_sqrt_nearest"
   ],
   "note": "sin, cos and x ** 2 are parameters; the accuracy assumed of them is a hypothesis, met by a concrete platform"
  },
  {
   "property": "C71",
   "status": "proved",
   "theorems": [
    "Dis.C71_accuracy",
    "Dis.C71_centre",
    "Dis.C71_longitude",
    "Dis.C71_near_axis_violated",
    "Dis.C71_point",
    "Dis.C71_poles",
    "Dis.C71_round_trip",
    "Dis.C71_rounds"
   ],
   "note": "Points at least 1 m from the axis; nearer, the code fails, and C71_near_axis_violated proves where."
  },
  {
   "property": "C72",
   "status": "proved",
   "theorems": [
    "Dis.C72_ecef2llarpy",
    "Dis.C72_failure",
    "Dis.C72_infinite",
    "Dis.C72_llarpy2ecef",
    "Dis.C72_round_trip"
   ],
   "note": "Libraries are parameters with stated accuracy (Numpy.Accurate), met by a reference implementation."
  },
  {
   "property": "C73",
   "status": "proved",
   "theorems": [
    "Dis.C73_ecef2ned",
    "Dis.C73_failure",
    "Dis.C73_ned2pae",
    "Dis.C73_range",
    "Dis.C73_round_trip",
    "Dis.C73_round_trip_back",
    "Dis.C73_true_directions"
   ],
   "note": "Libraries are parameters with stated accuracy (Numpy.Accurate), met by a reference implementation."
  },
  {
   "property": "C74",
   "status": "proved",
   "theorems": [
    "Dis.C74_attitude",
    "Dis.C74_infinite",
    "Dis.C74_loop",
    "Dis.C74_pole",
    "Dis.C74_sender",
    "Dis.C74_shown",
    "Dis.C74_unset_location"
   ],
   "note": "in doubles, for every library within Numpy.Accurate; the labels yaw and roll are exchanged on the display (C61_display_violated)"
  },
  {
   "property": "C75",
   "status": "proved",
   "theorems": [
    "Dis.C75_ecef",
    "Dis.C75_edge_violated",
    "Dis.C75_gravity",
    "Dis.C75_last_violated",
    "Dis.C75_latitude",
    "Dis.C75_letter",
    "Dis.C75_longitude",
    "Dis.C75_utm",
    "Dis.C75_utm_inside",
    "Dis.C75_zone"
   ],
   "note": "sin, cos, tan, x ** 2 and x ** n are parameters; the accuracy assumed of them is a hypothesis, met by a concrete library. The zone is not always that of the exact longitude: two _violated theorems show where."
  },
  {
   "property": "C76",
   "status": "proved",
   "theorems": [
    "Dis.C76_demo",
    "Dis.C76_moved",
    "Dis.C76_no_round",
    "Dis.C76_rounds",
    "Dis.C76_tenths"
   ],
   "note": "The program as it is, its loop for any step and duration, its second part for any start and displacement; the accuracy assumed of the C library is a hypothesis, met by a concrete library. The squares of numpy doubles are taken to be those of Python floats."
  },
  {
   "property": "C77",
   "status": "proved",
   "theorems": [
    "Dis.C77_catalogued",
    "Dis.C77_charactersString",
    "Dis.C77_complete",
    "Dis.C77_construct",
    "Dis.C77_construct_header",
    "Dis.C77_construct_radio",
    "Dis.C77_construct_serialize",
    "Dis.C77_construct_unknown",
    "Dis.C77_construct_vector",
    "Dis.C77_construct_with",
    "Dis.C77_constructors",
    "Dis.C77_faithful",
    "Dis.C77_getStandardVariableClass",
    "Dis.C77_header_init",
    "Dis.C77_header_raises",
    "Dis.C77_intercom_construct",
    "Dis.C77_intercom_construct_with",
    "Dis.C77_intercom_faithful",
    "Dis.C77_intercom_fresh",
    "Dis.C77_intercom_parse",
    "Dis.C77_intercom_raises",
    "Dis.C77_intercom_serialize",
    "Dis.C77_management_init",
    "Dis.C77_named",
    "Dis.C77_names",
    "Dis.C77_parse",
    "Dis.C77_parseStandardVariableRecord",
    "Dis.C77_pdu_init",
    "Dis.C77_raises",
    "Dis.C77_raises_with",
    "Dis.C77_records_faithful",
    "Dis.C77_round_trip",
    "Dis.C77_serialize",
    "Dis.C77_serializeRecord",
    "Dis.C77_setString",
    "Dis.C77_setString_model",
    "Dis.C77_text_over_the_wire",
    "Dis.C77_transmitter_construct",
    "Dis.C77_transmitter_construct_with",
    "Dis.C77_transmitter_faithful",
    "Dis.C77_transmitter_parse",
    "Dis.C77_transmitter_round_trip",
    "Dis.C77_transmitter_serialize",
    "Dis.C77_warfare_init"
   ],
   "note": "all 166 classes of the catalogue, TransmitterPdu, IntercomControlPdu, the two functions for standard variable records, and the records these functions make; constructors with arguments for all of them that have parameters; __init__ of the header and family classes on any object; setString and charactersString"
  },
  {
   "property": "C78",
   "status": "proved",
   "theorems": [
    "Dis.C78_angles",
    "Dis.C78_array_overflow",
    "Dis.C78_arrays",
    "Dis.C78_attitude",
    "Dis.C78_attitude_round_trip",
    "Dis.C78_body_near",
    "Dis.C78_centre",
    "Dis.C78_dead_reckoning",
    "Dis.C78_dead_reckoning_lists",
    "Dis.C78_distance",
    "Dis.C78_distance_difference",
    "Dis.C78_distance_near",
    "Dis.C78_ecef2lla",
    "Dis.C78_ecef2pae",
    "Dis.C78_euclideanDistance",
    "Dis.C78_frames",
    "Dis.C78_frames_numpy",
    "Dis.C78_gravity",
    "Dis.C78_lla2ecef",
    "Dis.C78_local_round_trip",
    "Dis.C78_one_result",
    "Dis.C78_range",
    "Dis.C78_rotating",
    "Dis.C78_rotation",
    "Dis.C78_round_trip",
    "Dis.C78_sender",
    "Dis.C78_skew",
    "Dis.C78_transpose",
    "Dis.C78_utm",
    "Dis.C78_utm_near",
    "Dis.C78_utm_raises",
    "Dis.C78_whole_arrays",
    "Dis.C78_whole_attitude",
    "Dis.C78_whole_numbers",
    "Dis.C78_whole_radians",
    "Dis.C78_world_near"
   ],
   "note": "Every function of the two modules, with whole numbers in place of floats for lla2ecef, llarpy2ecef and what they call, and in the lists given to the dead reckoning functions. Trusted are the dump of the syntax trees and the interpreter; the transliteration by hand is not."
  },
  {
   "property": "C79",
   "status": "proved",
   "theorems": [
    "Dis.C79_createPdu",
    "Dis.C79_createPduFromFilePath",
    "Dis.C79_decoders",
    "Dis.C79_exceptions",
    "Dis.C79_file_contents",
    "Dis.C79_getPdu",
    "Dis.C79_names",
    "Dis.C79_never_decoded",
    "Dis.C79_position_ignored",
    "Dis.C79_read",
    "Dis.C79_read_text",
    "Dis.C79_received_header",
    "Dis.C79_resend",
    "Dis.C79_round_trip",
    "Dis.C79_table",
    "Dis.C79_truncated",
    "Dis.C79_type_byte_decides",
    "Dis.C79_write",
    "Dis.C79_write_text"
   ],
   "note": "all methods of the streams, the table of C77, the factory for all messages, and the claims about the factory stated of the source alone (Props/IoFactory)"
  },
  {
   "property": "C80",
   "status": "proved",
   "theorems": [
    "Dis.C80_all",
    "Dis.C80_area_counts",
    "Dis.C80_is_positive_int",
    "Dis.C80_read",
    "Dis.C80_segments",
    "Dis.C80_sizes_common",
    "Dis.C80_sizes_parts",
    "Dis.C80_sizes_records_violated",
    "Dis.C80_transmitter",
    "Dis.C80_write"
   ],
   "note": "for the 166 classes of C77, TransmitterPdu, DirectedEnergyAreaAimpoint and LinearObjectStatePdu; the sizes of the standard variable records are wrong by the amounts stated (C58)"
  }
 ]
}
