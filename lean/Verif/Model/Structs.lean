import Verif.Model.Value

/-!
# The structures and enumerations of the library

Made by tools/gen_structs.py from ua/structs.generated.go (every `type ... struct` and every
`RegisterBinaryEncodingID` of its `init`, 2490-2773), ua/enums.generated.go and, for the numbers of the
ids, ua/nodeids.generated.go. The comments give the lines of each type. Structures and enumerations are
numbered in the order of these files.
-/

namespace Opcua.Structs

/-- The Go type of a field, as it stands in ua/structs.generated.go. -/
inductive F where
  | leaf (t : LTy)
  | variant
  | dataValue
  | ext
  | diag
  /-- a type of ua/enums.generated.go -/
  | enum (i : Nat)
  /-- a structure, embedded or as a field -/
  | struct (i : Nat)
  | slice (f : F)
  deriving DecidableEq, Repr

structure Struct where
  name : String
  fields : List (String × F)
  deriving DecidableEq, Repr

/-- A type of ua/enums.generated.go with its constants; all are `int32`. -/
structure Enum where
  name : String
  values : List (String × Nat)
  deriving DecidableEq, Repr

def enums0 : List Enum := [
  -- 0: NodeIDType, 8
  ⟨"NodeIDType", [("NodeIDTypeTwoByte", 0), ("NodeIDTypeFourByte", 1), ("NodeIDTypeNumeric", 2), ("NodeIDTypeString", 3), ("NodeIDTypeGUID", 4), ("NodeIDTypeByteString", 5)]⟩,
  -- 1: NamingRuleType, 41
  ⟨"NamingRuleType", [("NamingRuleTypeMandatory", 1), ("NamingRuleTypeOptional", 2), ("NamingRuleTypeConstraint", 3)]⟩,
  -- 2: OpenFileMode, 65
  ⟨"OpenFileMode", [("OpenFileModeRead", 1), ("OpenFileModeWrite", 2), ("OpenFileModeEraseExisting", 4), ("OpenFileModeAppend", 8)]⟩,
  -- 3: IdentityCriteriaType, 92
  ⟨"IdentityCriteriaType", [("IdentityCriteriaTypeUserName", 1), ("IdentityCriteriaTypeThumbprint", 2), ("IdentityCriteriaTypeRole", 3), ("IdentityCriteriaTypeGroupID", 4), ("IdentityCriteriaTypeAnonymous", 5), ("IdentityCriteriaTypeAuthenticatedUser", 6)]⟩,
  -- 4: TrustListMasks, 125
  ⟨"TrustListMasks", [("TrustListMasksNone", 0), ("TrustListMasksTrustedCertificates", 1), ("TrustListMasksTrustedCrls", 2), ("TrustListMasksIssuerCertificates", 4), ("TrustListMasksIssuerCrls", 8), ("TrustListMasksAll", 15)]⟩,
  -- 5: PubSubState, 158
  ⟨"PubSubState", [("PubSubStateDisabled", 0), ("PubSubStatePaused", 1), ("PubSubStateOperational", 2), ("PubSubStateError", 3)]⟩,
  -- 6: DataSetFieldFlags, 185
  ⟨"DataSetFieldFlags", [("DataSetFieldFlagsNone", 0), ("DataSetFieldFlagsPromotedField", 1)]⟩,
  -- 7: DataSetFieldContentMask, 206
  ⟨"DataSetFieldContentMask", [("DataSetFieldContentMaskNone", 0), ("DataSetFieldContentMaskStatusCode", 1), ("DataSetFieldContentMaskSourceTimestamp", 2), ("DataSetFieldContentMaskServerTimestamp", 4), ("DataSetFieldContentMaskSourcePicoSeconds", 8), ("DataSetFieldContentMaskServerPicoSeconds", 16), ("DataSetFieldContentMaskRawData", 32)]⟩,
  -- 8: OverrideValueHandling, 242
  ⟨"OverrideValueHandling", [("OverrideValueHandlingDisabled", 0), ("OverrideValueHandlingLastUsableValue", 1), ("OverrideValueHandlingOverrideValue", 2)]⟩,
  -- 9: DataSetOrderingType, 266
  ⟨"DataSetOrderingType", [("DataSetOrderingTypeUndefined", 0), ("DataSetOrderingTypeAscendingWriterID", 1), ("DataSetOrderingTypeAscendingWriterIDSingle", 2)]⟩,
  -- 10: UADPNetworkMessageContentMask, 290
  ⟨"UADPNetworkMessageContentMask", [("UADPNetworkMessageContentMaskNone", 0), ("UADPNetworkMessageContentMaskPublisherID", 1), ("UADPNetworkMessageContentMaskGroupHeader", 2), ("UADPNetworkMessageContentMaskWriterGroupID", 4), ("UADPNetworkMessageContentMaskGroupVersion", 8), ("UADPNetworkMessageContentMaskNetworkMessageNumber", 16), ("UADPNetworkMessageContentMaskSequenceNumber", 32), ("UADPNetworkMessageContentMaskPayloadHeader", 64), ("UADPNetworkMessageContentMaskTimestamp", 128), ("UADPNetworkMessageContentMaskPicoSeconds", 256), ("UADPNetworkMessageContentMaskDataSetClassID", 512), ("UADPNetworkMessageContentMaskPromotedFields", 1024)]⟩,
  -- 11: UADPDataSetMessageContentMask, 341
  ⟨"UADPDataSetMessageContentMask", [("UADPDataSetMessageContentMaskNone", 0), ("UADPDataSetMessageContentMaskTimestamp", 1), ("UADPDataSetMessageContentMaskPicoSeconds", 2), ("UADPDataSetMessageContentMaskStatus", 4), ("UADPDataSetMessageContentMaskMajorVersion", 8), ("UADPDataSetMessageContentMaskMinorVersion", 16), ("UADPDataSetMessageContentMaskSequenceNumber", 32)]⟩,
  -- 12: JSONNetworkMessageContentMask, 377
  ⟨"JSONNetworkMessageContentMask", [("JSONNetworkMessageContentMaskNone", 0), ("JSONNetworkMessageContentMaskNetworkMessageHeader", 1), ("JSONNetworkMessageContentMaskDataSetMessageHeader", 2), ("JSONNetworkMessageContentMaskSingleDataSetMessage", 4), ("JSONNetworkMessageContentMaskPublisherID", 8), ("JSONNetworkMessageContentMaskDataSetClassID", 16), ("JSONNetworkMessageContentMaskReplyTo", 32)]⟩,
  -- 13: JSONDataSetMessageContentMask, 413
  ⟨"JSONDataSetMessageContentMask", [("JSONDataSetMessageContentMaskNone", 0), ("JSONDataSetMessageContentMaskDataSetWriterID", 1), ("JSONDataSetMessageContentMaskMetaDataVersion", 2), ("JSONDataSetMessageContentMaskSequenceNumber", 4), ("JSONDataSetMessageContentMaskTimestamp", 8), ("JSONDataSetMessageContentMaskStatus", 16)]⟩,
  -- 14: BrokerTransportQoS, 446
  ⟨"BrokerTransportQoS", [("BrokerTransportQoSNotSpecified", 0), ("BrokerTransportQoSBestEffort", 1), ("BrokerTransportQoSAtLeastOnce", 2), ("BrokerTransportQoSAtMostOnce", 3), ("BrokerTransportQoSExactlyOnce", 4)]⟩,
  -- 15: DiagnosticsLevel, 476
  ⟨"DiagnosticsLevel", [("DiagnosticsLevelBasic", 0), ("DiagnosticsLevelAdvanced", 1), ("DiagnosticsLevelInfo", 2), ("DiagnosticsLevelLog", 3), ("DiagnosticsLevelDebug", 4)]⟩]

def enums1 : List Enum := [
  -- 16: PubSubDiagnosticsCounterClassification, 506
  ⟨"PubSubDiagnosticsCounterClassification", [("PubSubDiagnosticsCounterClassificationInformation", 0), ("PubSubDiagnosticsCounterClassificationError", 1)]⟩,
  -- 17: IDType, 527
  ⟨"IDType", [("IDTypeNumeric", 0), ("IDTypeString", 1), ("IDTypeGUID", 2), ("IDTypeOpaque", 3)]⟩,
  -- 18: NodeClass, 554
  ⟨"NodeClass", [("NodeClassUnspecified", 0), ("NodeClassObject", 1), ("NodeClassVariable", 2), ("NodeClassMethod", 4), ("NodeClassObjectType", 8), ("NodeClassVariableType", 16), ("NodeClassReferenceType", 32), ("NodeClassDataType", 64), ("NodeClassView", 128)]⟩,
  -- 19: PermissionType, 596
  ⟨"PermissionType", [("PermissionTypeNone", 0), ("PermissionTypeBrowse", 1), ("PermissionTypeReadRolePermissions", 2), ("PermissionTypeWriteAttribute", 4), ("PermissionTypeWriteRolePermissions", 8), ("PermissionTypeWriteHistorizing", 16), ("PermissionTypeRead", 32), ("PermissionTypeWrite", 64), ("PermissionTypeReadHistory", 128), ("PermissionTypeInsertHistory", 256), ("PermissionTypeModifyHistory", 512), ("PermissionTypeDeleteHistory", 1024), ("PermissionTypeReceiveEvents", 2048), ("PermissionTypeCall", 4096), ("PermissionTypeAddReference", 8192), ("PermissionTypeRemoveReference", 16384), ("PermissionTypeDeleteNode", 32768), ("PermissionTypeAddNode", 65536)]⟩,
  -- 20: AccessLevelType, 665
  ⟨"AccessLevelType", [("AccessLevelTypeNone", 0), ("AccessLevelTypeCurrentRead", 1), ("AccessLevelTypeCurrentWrite", 2), ("AccessLevelTypeHistoryRead", 4), ("AccessLevelTypeHistoryWrite", 8), ("AccessLevelTypeSemanticChange", 16), ("AccessLevelTypeStatusWrite", 32), ("AccessLevelTypeTimestampWrite", 64)]⟩,
  -- 21: AccessLevelExType, 704
  ⟨"AccessLevelExType", [("AccessLevelExTypeNone", 0), ("AccessLevelExTypeCurrentRead", 1), ("AccessLevelExTypeCurrentWrite", 2), ("AccessLevelExTypeHistoryRead", 4), ("AccessLevelExTypeHistoryWrite", 8), ("AccessLevelExTypeSemanticChange", 16), ("AccessLevelExTypeStatusWrite", 32), ("AccessLevelExTypeTimestampWrite", 64), ("AccessLevelExTypeNonatomicRead", 256), ("AccessLevelExTypeNonatomicWrite", 512), ("AccessLevelExTypeWriteFullArrayOnly", 1024)]⟩,
  -- 22: EventNotifierType, 752
  ⟨"EventNotifierType", [("EventNotifierTypeNone", 0), ("EventNotifierTypeSubscribeToEvents", 1), ("EventNotifierTypeHistoryRead", 4), ("EventNotifierTypeHistoryWrite", 8)]⟩,
  -- 23: AccessRestrictionType, 779
  ⟨"AccessRestrictionType", [("AccessRestrictionTypeNone", 0), ("AccessRestrictionTypeSigningRequired", 1), ("AccessRestrictionTypeEncryptionRequired", 2), ("AccessRestrictionTypeSessionRequired", 4)]⟩,
  -- 24: StructureType, 806
  ⟨"StructureType", [("StructureTypeStructure", 0), ("StructureTypeStructureWithOptionalFields", 1), ("StructureTypeUnion", 2)]⟩,
  -- 25: ApplicationType, 830
  ⟨"ApplicationType", [("ApplicationTypeServer", 0), ("ApplicationTypeClient", 1), ("ApplicationTypeClientAndServer", 2), ("ApplicationTypeDiscoveryServer", 3)]⟩,
  -- 26: MessageSecurityMode, 857
  ⟨"MessageSecurityMode", [("MessageSecurityModeInvalid", 0), ("MessageSecurityModeNone", 1), ("MessageSecurityModeSign", 2), ("MessageSecurityModeSignAndEncrypt", 3)]⟩,
  -- 27: UserTokenType, 884
  ⟨"UserTokenType", [("UserTokenTypeAnonymous", 0), ("UserTokenTypeUserName", 1), ("UserTokenTypeCertificate", 2), ("UserTokenTypeIssuedToken", 3)]⟩,
  -- 28: SecurityTokenRequestType, 911
  ⟨"SecurityTokenRequestType", [("SecurityTokenRequestTypeIssue", 0), ("SecurityTokenRequestTypeRenew", 1)]⟩,
  -- 29: NodeAttributesMask, 932
  ⟨"NodeAttributesMask", [("NodeAttributesMaskNone", 0), ("NodeAttributesMaskAccessLevel", 1), ("NodeAttributesMaskArrayDimensions", 2), ("NodeAttributesMaskBrowseName", 4), ("NodeAttributesMaskContainsNoLoops", 8), ("NodeAttributesMaskDataType", 16), ("NodeAttributesMaskDescription", 32), ("NodeAttributesMaskDisplayName", 64), ("NodeAttributesMaskEventNotifier", 128), ("NodeAttributesMaskExecutable", 256), ("NodeAttributesMaskHistorizing", 512), ("NodeAttributesMaskInverseName", 1024), ("NodeAttributesMaskIsAbstract", 2048), ("NodeAttributesMaskMinimumSamplingInterval", 4096), ("NodeAttributesMaskNodeClass", 8192), ("NodeAttributesMaskNodeID", 16384), ("NodeAttributesMaskSymmetric", 32768), ("NodeAttributesMaskUserAccessLevel", 65536), ("NodeAttributesMaskUserExecutable", 131072), ("NodeAttributesMaskUserWriteMask", 262144), ("NodeAttributesMaskValueRank", 524288), ("NodeAttributesMaskWriteMask", 1048576), ("NodeAttributesMaskValue", 2097152), ("NodeAttributesMaskDataTypeDefinition", 4194304), ("NodeAttributesMaskRolePermissions", 8388608), ("NodeAttributesMaskAccessRestrictions", 16777216), ("NodeAttributesMaskAll", 33554431), ("NodeAttributesMaskBaseNode", 26501220), ("NodeAttributesMaskObject", 26501348), ("NodeAttributesMaskObjectType", 26503268), ("NodeAttributesMaskVariable", 26571383), ("NodeAttributesMaskVariableType", 28600438), ("NodeAttributesMaskMethod", 26632548), ("NodeAttributesMaskReferenceType", 26537060), ("NodeAttributesMaskView", 26501356)]⟩,
  -- 30: AttributeWriteMask, 1052
  ⟨"AttributeWriteMask", [("AttributeWriteMaskNone", 0), ("AttributeWriteMaskAccessLevel", 1), ("AttributeWriteMaskArrayDimensions", 2), ("AttributeWriteMaskBrowseName", 4), ("AttributeWriteMaskContainsNoLoops", 8), ("AttributeWriteMaskDataType", 16), ("AttributeWriteMaskDescription", 32), ("AttributeWriteMaskDisplayName", 64), ("AttributeWriteMaskEventNotifier", 128), ("AttributeWriteMaskExecutable", 256), ("AttributeWriteMaskHistorizing", 512), ("AttributeWriteMaskInverseName", 1024), ("AttributeWriteMaskIsAbstract", 2048), ("AttributeWriteMaskMinimumSamplingInterval", 4096), ("AttributeWriteMaskNodeClass", 8192), ("AttributeWriteMaskNodeID", 16384), ("AttributeWriteMaskSymmetric", 32768), ("AttributeWriteMaskUserAccessLevel", 65536), ("AttributeWriteMaskUserExecutable", 131072), ("AttributeWriteMaskUserWriteMask", 262144), ("AttributeWriteMaskValueRank", 524288), ("AttributeWriteMaskWriteMask", 1048576), ("AttributeWriteMaskValueForVariableType", 2097152), ("AttributeWriteMaskDataTypeDefinition", 4194304), ("AttributeWriteMaskRolePermissions", 8388608), ("AttributeWriteMaskAccessRestrictions", 16777216), ("AttributeWriteMaskAccessLevelEx", 33554432)]⟩,
  -- 31: BrowseDirection, 1148
  ⟨"BrowseDirection", [("BrowseDirectionForward", 0), ("BrowseDirectionInverse", 1), ("BrowseDirectionBoth", 2), ("BrowseDirectionInvalid", 3)]⟩]

def enums2 : List Enum := [
  -- 32: BrowseResultMask, 1175
  ⟨"BrowseResultMask", [("BrowseResultMaskNone", 0), ("BrowseResultMaskReferenceTypeID", 1), ("BrowseResultMaskIsForward", 2), ("BrowseResultMaskNodeClass", 4), ("BrowseResultMaskBrowseName", 8), ("BrowseResultMaskDisplayName", 16), ("BrowseResultMaskTypeDefinition", 32), ("BrowseResultMaskAll", 63), ("BrowseResultMaskReferenceTypeInfo", 3), ("BrowseResultMaskTargetInfo", 60)]⟩,
  -- 33: FilterOperator, 1220
  ⟨"FilterOperator", [("FilterOperatorEquals", 0), ("FilterOperatorIsNull", 1), ("FilterOperatorGreaterThan", 2), ("FilterOperatorLessThan", 3), ("FilterOperatorGreaterThanOrEqual", 4), ("FilterOperatorLessThanOrEqual", 5), ("FilterOperatorLike", 6), ("FilterOperatorNot", 7), ("FilterOperatorBetween", 8), ("FilterOperatorInList", 9), ("FilterOperatorAnd", 10), ("FilterOperatorOr", 11), ("FilterOperatorCast", 12), ("FilterOperatorInView", 13), ("FilterOperatorOfType", 14), ("FilterOperatorRelatedTo", 15), ("FilterOperatorBitwiseAnd", 16), ("FilterOperatorBitwiseOr", 17)]⟩,
  -- 34: TimestampsToReturn, 1289
  ⟨"TimestampsToReturn", [("TimestampsToReturnSource", 0), ("TimestampsToReturnServer", 1), ("TimestampsToReturnBoth", 2), ("TimestampsToReturnNeither", 3), ("TimestampsToReturnInvalid", 4)]⟩,
  -- 35: HistoryUpdateType, 1319
  ⟨"HistoryUpdateType", [("HistoryUpdateTypeInsert", 1), ("HistoryUpdateTypeReplace", 2), ("HistoryUpdateTypeUpdate", 3), ("HistoryUpdateTypeDelete", 4)]⟩,
  -- 36: PerformUpdateType, 1346
  ⟨"PerformUpdateType", [("PerformUpdateTypeInsert", 1), ("PerformUpdateTypeReplace", 2), ("PerformUpdateTypeUpdate", 3), ("PerformUpdateTypeRemove", 4)]⟩,
  -- 37: MonitoringMode, 1373
  ⟨"MonitoringMode", [("MonitoringModeDisabled", 0), ("MonitoringModeSampling", 1), ("MonitoringModeReporting", 2)]⟩,
  -- 38: DataChangeTrigger, 1397
  ⟨"DataChangeTrigger", [("DataChangeTriggerStatus", 0), ("DataChangeTriggerStatusValue", 1), ("DataChangeTriggerStatusValueTimestamp", 2)]⟩,
  -- 39: DeadbandType, 1421
  ⟨"DeadbandType", [("DeadbandTypeNone", 0), ("DeadbandTypeAbsolute", 1), ("DeadbandTypePercent", 2)]⟩,
  -- 40: RedundancySupport, 1445
  ⟨"RedundancySupport", [("RedundancySupportNone", 0), ("RedundancySupportCold", 1), ("RedundancySupportWarm", 2), ("RedundancySupportHot", 3), ("RedundancySupportTransparent", 4), ("RedundancySupportHotAndMirrored", 5)]⟩,
  -- 41: ServerState, 1478
  ⟨"ServerState", [("ServerStateRunning", 0), ("ServerStateFailed", 1), ("ServerStateNoConfiguration", 2), ("ServerStateSuspended", 3), ("ServerStateShutdown", 4), ("ServerStateTest", 5), ("ServerStateCommunicationFault", 6), ("ServerStateUnknown", 7)]⟩,
  -- 42: ModelChangeStructureVerbMask, 1517
  ⟨"ModelChangeStructureVerbMask", [("ModelChangeStructureVerbMaskNodeAdded", 1), ("ModelChangeStructureVerbMaskNodeDeleted", 2), ("ModelChangeStructureVerbMaskReferenceAdded", 4), ("ModelChangeStructureVerbMaskReferenceDeleted", 8), ("ModelChangeStructureVerbMaskDataTypeChanged", 16)]⟩,
  -- 43: AxisScaleEnumeration, 1547
  ⟨"AxisScaleEnumeration", [("AxisScaleEnumerationLinear", 0), ("AxisScaleEnumerationLog", 1), ("AxisScaleEnumerationLn", 2)]⟩,
  -- 44: ExceptionDeviationFormat, 1571
  ⟨"ExceptionDeviationFormat", [("ExceptionDeviationFormatAbsoluteValue", 0), ("ExceptionDeviationFormatPercentOfValue", 1), ("ExceptionDeviationFormatPercentOfRange", 2), ("ExceptionDeviationFormatPercentOfEURange", 3), ("ExceptionDeviationFormatUnknown", 4)]⟩]

/-- ua/enums.generated.go -/
def enums : List Enum := enums0 ++ enums1 ++ enums2

def structs0 : List Struct := [
  -- 0: KeyValuePair, 15-18
  ⟨"KeyValuePair", [("Key", (.leaf .qualifiedName)), ("Value", .variant)]⟩,
  -- 1: AdditionalParametersType, 22-24
  ⟨"AdditionalParametersType", [("Parameters", (.slice (.struct 0)))]⟩,
  -- 2: EphemeralKeyType, 28-31
  ⟨"EphemeralKeyType", [("PublicKey", (.leaf .byteString)), ("Signature", (.leaf .byteString))]⟩,
  -- 3: EndpointType, 35-40
  ⟨"EndpointType", [("EndpointURL", (.leaf .string)), ("SecurityMode", (.enum 26)), ("SecurityPolicyURI", (.leaf .string)), ("TransportProfileURI", (.leaf .string))]⟩,
  -- 4: RationalNumber, 44-47
  ⟨"RationalNumber", [("Numerator", (.leaf .int32)), ("Denominator", (.leaf .uint32))]⟩,
  -- 5: Vector, 51-52
  ⟨"Vector", []⟩,
  -- 6: ThreeDVector, 56-60
  ⟨"ThreeDVector", [("X", (.leaf .double)), ("Y", (.leaf .double)), ("Z", (.leaf .double))]⟩,
  -- 7: CartesianCoordinates, 64-65
  ⟨"CartesianCoordinates", []⟩,
  -- 8: ThreeDCartesianCoordinates, 69-73
  ⟨"ThreeDCartesianCoordinates", [("X", (.leaf .double)), ("Y", (.leaf .double)), ("Z", (.leaf .double))]⟩,
  -- 9: Orientation, 77-78
  ⟨"Orientation", []⟩,
  -- 10: ThreeDOrientation, 82-86
  ⟨"ThreeDOrientation", [("A", (.leaf .double)), ("B", (.leaf .double)), ("C", (.leaf .double))]⟩,
  -- 11: Frame, 90-91
  ⟨"Frame", []⟩,
  -- 12: ThreeDFrame, 95-98
  ⟨"ThreeDFrame", [("CartesianCoordinates", (.struct 8)), ("Orientation", (.struct 10))]⟩,
  -- 13: IdentityMappingRuleType, 102-105
  ⟨"IdentityMappingRuleType", [("CriteriaType", (.enum 3)), ("Criteria", (.leaf .string))]⟩,
  -- 14: CurrencyUnitType, 109-114
  ⟨"CurrencyUnitType", [("NumericCode", (.leaf .int16)), ("Exponent", (.leaf .sbyte)), ("AlphabeticCode", (.leaf .string)), ("Currency", (.leaf .localizedText))]⟩,
  -- 15: TrustListDataType, 118-124
  ⟨"TrustListDataType", [("SpecifiedLists", (.leaf .uint32)), ("TrustedCertificates", (.slice (.leaf .byteString))), ("TrustedCrls", (.slice (.leaf .byteString))), ("IssuerCertificates", (.slice (.leaf .byteString))), ("IssuerCrls", (.slice (.leaf .byteString)))]⟩,
  -- 16: DecimalDataType, 128-131
  ⟨"DecimalDataType", [("Scale", (.leaf .int16)), ("Value", (.leaf .byteString))]⟩,
  -- 17: DataTypeSchemaHeader, 135-140
  ⟨"DataTypeSchemaHeader", [("Namespaces", (.slice (.leaf .string))), ("StructureDataTypes", (.slice (.struct 19))), ("EnumDataTypes", (.slice (.struct 20))), ("SimpleDataTypes", (.slice (.struct 21)))]⟩,
  -- 18: DataTypeDescription, 144-147
  ⟨"DataTypeDescription", [("DataTypeID", (.leaf .nodeID)), ("Name", (.leaf .qualifiedName))]⟩,
  -- 19: StructureDescription, 151-155
  ⟨"StructureDescription", [("DataTypeID", (.leaf .nodeID)), ("Name", (.leaf .qualifiedName)), ("StructureDefinition", (.struct 68))]⟩,
  -- 20: EnumDescription, 159-164
  ⟨"EnumDescription", [("DataTypeID", (.leaf .nodeID)), ("Name", (.leaf .qualifiedName)), ("EnumDefinition", (.struct 69)), ("BuiltInType", (.leaf .byte))]⟩,
  -- 21: SimpleTypeDescription, 168-173
  ⟨"SimpleTypeDescription", [("DataTypeID", (.leaf .nodeID)), ("Name", (.leaf .qualifiedName)), ("BaseDataType", (.leaf .nodeID)), ("BuiltInType", (.leaf .byte))]⟩,
  -- 22: UABinaryFileDataType, 177-185
  ⟨"UABinaryFileDataType", [("Namespaces", (.slice (.leaf .string))), ("StructureDataTypes", (.slice (.struct 19))), ("EnumDataTypes", (.slice (.struct 20))), ("SimpleDataTypes", (.slice (.struct 21))), ("SchemaLocation", (.leaf .string)), ("FileHeader", (.slice (.struct 0))), ("Body", .variant)]⟩,
  -- 23: DataSetMetaDataType, 189-199
  ⟨"DataSetMetaDataType", [("Namespaces", (.slice (.leaf .string))), ("StructureDataTypes", (.slice (.struct 19))), ("EnumDataTypes", (.slice (.struct 20))), ("SimpleDataTypes", (.slice (.struct 21))), ("Name", (.leaf .string)), ("Description", (.leaf .localizedText)), ("Fields", (.slice (.struct 24))), ("DataSetClassID", (.leaf .guid)), ("ConfigurationVersion", (.struct 25))]⟩,
  -- 24: FieldMetaData, 203-214
  ⟨"FieldMetaData", [("Name", (.leaf .string)), ("Description", (.leaf .localizedText)), ("FieldFlags", (.enum 6)), ("BuiltInType", (.leaf .byte)), ("DataType", (.leaf .nodeID)), ("ValueRank", (.leaf .int32)), ("ArrayDimensions", (.slice (.leaf .uint32))), ("MaxStringLength", (.leaf .uint32)), ("DataSetFieldID", (.leaf .guid)), ("Properties", (.slice (.struct 0)))]⟩,
  -- 25: ConfigurationVersionDataType, 218-221
  ⟨"ConfigurationVersionDataType", [("MajorVersion", (.leaf .uint32)), ("MinorVersion", (.leaf .uint32))]⟩,
  -- 26: PublishedDataSetDataType, 225-231
  ⟨"PublishedDataSetDataType", [("Name", (.leaf .string)), ("DataSetFolder", (.slice (.leaf .string))), ("DataSetMetaData", (.struct 23)), ("ExtensionFields", (.slice (.struct 0))), ("DataSetSource", .ext)]⟩,
  -- 27: PublishedDataSetSourceDataType, 235-236
  ⟨"PublishedDataSetSourceDataType", []⟩,
  -- 28: PublishedVariableDataType, 240-249
  ⟨"PublishedVariableDataType", [("PublishedVariable", (.leaf .nodeID)), ("AttributeID", (.leaf .uint32)), ("SamplingIntervalHint", (.leaf .double)), ("DeadbandType", (.leaf .uint32)), ("DeadbandValue", (.leaf .double)), ("IndexRange", (.leaf .string)), ("SubstituteValue", .variant), ("MetaDataProperties", (.slice (.leaf .qualifiedName)))]⟩,
  -- 29: PublishedDataItemsDataType, 253-255
  ⟨"PublishedDataItemsDataType", [("PublishedData", (.slice (.struct 28)))]⟩,
  -- 30: PublishedEventsDataType, 259-263
  ⟨"PublishedEventsDataType", [("EventNotifier", (.leaf .nodeID)), ("SelectedFields", (.slice (.struct 172))), ("Filter", (.struct 167))]⟩,
  -- 31: DataSetWriterDataType, 267-277
  ⟨"DataSetWriterDataType", [("Name", (.leaf .string)), ("Enabled", (.leaf .bool)), ("DataSetWriterID", (.leaf .uint16)), ("DataSetFieldContentMask", (.enum 7)), ("KeyFrameCount", (.leaf .uint32)), ("DataSetName", (.leaf .string)), ("DataSetWriterProperties", (.slice (.struct 0))), ("TransportSettings", .ext), ("MessageSettings", .ext)]⟩,
  -- 32: DataSetWriterTransportDataType, 281-282
  ⟨"DataSetWriterTransportDataType", []⟩,
  -- 33: DataSetWriterMessageDataType, 286-287
  ⟨"DataSetWriterMessageDataType", []⟩,
  -- 34: PubSubGroupDataType, 291-299
  ⟨"PubSubGroupDataType", [("Name", (.leaf .string)), ("Enabled", (.leaf .bool)), ("SecurityMode", (.enum 26)), ("SecurityGroupID", (.leaf .string)), ("SecurityKeyServices", (.slice (.struct 88))), ("MaxNetworkMessageSize", (.leaf .uint32)), ("GroupProperties", (.slice (.struct 0)))]⟩,
  -- 35: WriterGroupDataType, 303-320
  ⟨"WriterGroupDataType", [("Name", (.leaf .string)), ("Enabled", (.leaf .bool)), ("SecurityMode", (.enum 26)), ("SecurityGroupID", (.leaf .string)), ("SecurityKeyServices", (.slice (.struct 88))), ("MaxNetworkMessageSize", (.leaf .uint32)), ("GroupProperties", (.slice (.struct 0))), ("WriterGroupID", (.leaf .uint16)), ("PublishingInterval", (.leaf .double)), ("KeepAliveTime", (.leaf .double)), ("Priority", (.leaf .byte)), ("LocaleIDs", (.slice (.leaf .string))), ("HeaderLayoutURI", (.leaf .string)), ("TransportSettings", .ext), ("MessageSettings", .ext), ("DataSetWriters", (.slice (.struct 31)))]⟩]

def structs1 : List Struct := [
  -- 36: WriterGroupTransportDataType, 324-325
  ⟨"WriterGroupTransportDataType", []⟩,
  -- 37: WriterGroupMessageDataType, 329-330
  ⟨"WriterGroupMessageDataType", []⟩,
  -- 38: PubSubConnectionDataType, 334-344
  ⟨"PubSubConnectionDataType", [("Name", (.leaf .string)), ("Enabled", (.leaf .bool)), ("PublisherID", .variant), ("TransportProfileURI", (.leaf .string)), ("Address", .ext), ("ConnectionProperties", (.slice (.struct 0))), ("TransportSettings", .ext), ("WriterGroups", (.slice (.struct 35))), ("ReaderGroups", (.slice (.struct 42)))]⟩,
  -- 39: ConnectionTransportDataType, 348-349
  ⟨"ConnectionTransportDataType", []⟩,
  -- 40: NetworkAddressDataType, 353-355
  ⟨"NetworkAddressDataType", [("NetworkInterface", (.leaf .string))]⟩,
  -- 41: NetworkAddressURLDataType, 359-362
  ⟨"NetworkAddressURLDataType", [("NetworkInterface", (.leaf .string)), ("URL", (.leaf .string))]⟩,
  -- 42: ReaderGroupDataType, 366-377
  ⟨"ReaderGroupDataType", [("Name", (.leaf .string)), ("Enabled", (.leaf .bool)), ("SecurityMode", (.enum 26)), ("SecurityGroupID", (.leaf .string)), ("SecurityKeyServices", (.slice (.struct 88))), ("MaxNetworkMessageSize", (.leaf .uint32)), ("GroupProperties", (.slice (.struct 0))), ("TransportSettings", .ext), ("MessageSettings", .ext), ("DataSetReaders", (.slice (.struct 45)))]⟩,
  -- 43: ReaderGroupTransportDataType, 381-382
  ⟨"ReaderGroupTransportDataType", []⟩,
  -- 44: ReaderGroupMessageDataType, 386-387
  ⟨"ReaderGroupMessageDataType", []⟩,
  -- 45: DataSetReaderDataType, 391-409
  ⟨"DataSetReaderDataType", [("Name", (.leaf .string)), ("Enabled", (.leaf .bool)), ("PublisherID", .variant), ("WriterGroupID", (.leaf .uint16)), ("DataSetWriterID", (.leaf .uint16)), ("DataSetMetaData", (.struct 23)), ("DataSetFieldContentMask", (.enum 7)), ("MessageReceiveTimeout", (.leaf .double)), ("KeyFrameCount", (.leaf .uint32)), ("HeaderLayoutURI", (.leaf .string)), ("SecurityMode", (.enum 26)), ("SecurityGroupID", (.leaf .string)), ("SecurityKeyServices", (.slice (.struct 88))), ("DataSetReaderProperties", (.slice (.struct 0))), ("TransportSettings", .ext), ("MessageSettings", .ext), ("SubscribedDataSet", .ext)]⟩,
  -- 46: DataSetReaderTransportDataType, 413-414
  ⟨"DataSetReaderTransportDataType", []⟩,
  -- 47: DataSetReaderMessageDataType, 418-419
  ⟨"DataSetReaderMessageDataType", []⟩,
  -- 48: SubscribedDataSetDataType, 423-424
  ⟨"SubscribedDataSetDataType", []⟩,
  -- 49: TargetVariablesDataType, 428-430
  ⟨"TargetVariablesDataType", [("TargetVariables", (.slice (.struct 50)))]⟩,
  -- 50: FieldTargetDataType, 434-442
  ⟨"FieldTargetDataType", [("DataSetFieldID", (.leaf .guid)), ("ReceiverIndexRange", (.leaf .string)), ("TargetNodeID", (.leaf .nodeID)), ("AttributeID", (.leaf .uint32)), ("WriteIndexRange", (.leaf .string)), ("OverrideValueHandling", (.enum 8)), ("OverrideValue", .variant)]⟩,
  -- 51: SubscribedDataSetMirrorDataType, 446-449
  ⟨"SubscribedDataSetMirrorDataType", [("ParentNodeName", (.leaf .string)), ("RolePermissions", (.slice (.struct 66)))]⟩,
  -- 52: PubSubConfigurationDataType, 453-457
  ⟨"PubSubConfigurationDataType", [("PublishedDataSets", (.slice (.struct 26))), ("Connections", (.slice (.struct 38))), ("Enabled", (.leaf .bool))]⟩,
  -- 53: UADPWriterGroupMessageDataType, 461-467
  ⟨"UADPWriterGroupMessageDataType", [("GroupVersion", (.leaf .uint32)), ("DataSetOrdering", (.enum 9)), ("NetworkMessageContentMask", (.enum 10)), ("SamplingOffset", (.leaf .double)), ("PublishingOffset", (.slice (.leaf .double)))]⟩,
  -- 54: UADPDataSetWriterMessageDataType, 471-476
  ⟨"UADPDataSetWriterMessageDataType", [("DataSetMessageContentMask", (.enum 11)), ("ConfiguredSize", (.leaf .uint16)), ("NetworkMessageNumber", (.leaf .uint16)), ("DataSetOffset", (.leaf .uint16))]⟩,
  -- 55: UADPDataSetReaderMessageDataType, 480-490
  ⟨"UADPDataSetReaderMessageDataType", [("GroupVersion", (.leaf .uint32)), ("NetworkMessageNumber", (.leaf .uint16)), ("DataSetOffset", (.leaf .uint16)), ("DataSetClassID", (.leaf .guid)), ("NetworkMessageContentMask", (.enum 10)), ("DataSetMessageContentMask", (.enum 11)), ("PublishingInterval", (.leaf .double)), ("ReceiveOffset", (.leaf .double)), ("ProcessingOffset", (.leaf .double))]⟩,
  -- 56: JSONWriterGroupMessageDataType, 494-496
  ⟨"JSONWriterGroupMessageDataType", [("NetworkMessageContentMask", (.enum 12))]⟩,
  -- 57: JSONDataSetWriterMessageDataType, 500-502
  ⟨"JSONDataSetWriterMessageDataType", [("DataSetMessageContentMask", (.enum 13))]⟩,
  -- 58: JSONDataSetReaderMessageDataType, 506-509
  ⟨"JSONDataSetReaderMessageDataType", [("NetworkMessageContentMask", (.enum 12)), ("DataSetMessageContentMask", (.enum 13))]⟩,
  -- 59: DatagramConnectionTransportDataType, 513-515
  ⟨"DatagramConnectionTransportDataType", [("DiscoveryAddress", .ext)]⟩,
  -- 60: DatagramWriterGroupTransportDataType, 519-522
  ⟨"DatagramWriterGroupTransportDataType", [("MessageRepeatCount", (.leaf .byte)), ("MessageRepeatDelay", (.leaf .double))]⟩,
  -- 61: BrokerConnectionTransportDataType, 526-529
  ⟨"BrokerConnectionTransportDataType", [("ResourceURI", (.leaf .string)), ("AuthenticationProfileURI", (.leaf .string))]⟩,
  -- 62: BrokerWriterGroupTransportDataType, 533-538
  ⟨"BrokerWriterGroupTransportDataType", [("QueueName", (.leaf .string)), ("ResourceURI", (.leaf .string)), ("AuthenticationProfileURI", (.leaf .string)), ("RequestedDeliveryGuarantee", (.enum 14))]⟩,
  -- 63: BrokerDataSetWriterTransportDataType, 542-549
  ⟨"BrokerDataSetWriterTransportDataType", [("QueueName", (.leaf .string)), ("ResourceURI", (.leaf .string)), ("AuthenticationProfileURI", (.leaf .string)), ("RequestedDeliveryGuarantee", (.enum 14)), ("MetaDataQueueName", (.leaf .string)), ("MetaDataUpdateTime", (.leaf .double))]⟩,
  -- 64: BrokerDataSetReaderTransportDataType, 553-559
  ⟨"BrokerDataSetReaderTransportDataType", [("QueueName", (.leaf .string)), ("ResourceURI", (.leaf .string)), ("AuthenticationProfileURI", (.leaf .string)), ("RequestedDeliveryGuarantee", (.enum 14)), ("MetaDataQueueName", (.leaf .string))]⟩,
  -- 65: AliasNameDataType, 563-566
  ⟨"AliasNameDataType", [("AliasName", (.leaf .qualifiedName)), ("ReferencedNodes", (.slice (.leaf .expandedNodeID)))]⟩,
  -- 66: RolePermissionType, 570-573
  ⟨"RolePermissionType", [("RoleID", (.leaf .nodeID)), ("Permissions", (.enum 19))]⟩,
  -- 67: StructureField, 577-585
  ⟨"StructureField", [("Name", (.leaf .string)), ("Description", (.leaf .localizedText)), ("DataType", (.leaf .nodeID)), ("ValueRank", (.leaf .int32)), ("ArrayDimensions", (.slice (.leaf .uint32))), ("MaxStringLength", (.leaf .uint32)), ("IsOptional", (.leaf .bool))]⟩,
  -- 68: StructureDefinition, 589-594
  ⟨"StructureDefinition", [("DefaultEncodingID", (.leaf .nodeID)), ("BaseDataType", (.leaf .nodeID)), ("StructureType", (.enum 24)), ("Fields", (.slice (.struct 67)))]⟩,
  -- 69: EnumDefinition, 598-600
  ⟨"EnumDefinition", [("Fields", (.slice (.struct 72)))]⟩,
  -- 70: Argument, 604-610
  ⟨"Argument", [("Name", (.leaf .string)), ("DataType", (.leaf .nodeID)), ("ValueRank", (.leaf .int32)), ("ArrayDimensions", (.slice (.leaf .uint32))), ("Description", (.leaf .localizedText))]⟩,
  -- 71: EnumValueType, 614-618
  ⟨"EnumValueType", [("Value", (.leaf .int64)), ("DisplayName", (.leaf .localizedText)), ("Description", (.leaf .localizedText))]⟩]

def structs2 : List Struct := [
  -- 72: EnumField, 622-627
  ⟨"EnumField", [("Value", (.leaf .int64)), ("DisplayName", (.leaf .localizedText)), ("Description", (.leaf .localizedText)), ("Name", (.leaf .string))]⟩,
  -- 73: OptionSet, 631-634
  ⟨"OptionSet", [("Value", (.leaf .byteString)), ("ValidBits", (.leaf .byteString))]⟩,
  -- 74: Union, 638-639
  ⟨"Union", []⟩,
  -- 75: TimeZoneDataType, 643-646
  ⟨"TimeZoneDataType", [("Offset", (.leaf .int16)), ("DaylightSavingInOffset", (.leaf .bool))]⟩,
  -- 76: ApplicationDescription, 650-658
  ⟨"ApplicationDescription", [("ApplicationURI", (.leaf .string)), ("ProductURI", (.leaf .string)), ("ApplicationName", (.leaf .localizedText)), ("ApplicationType", (.enum 25)), ("GatewayServerURI", (.leaf .string)), ("DiscoveryProfileURI", (.leaf .string)), ("DiscoveryURLs", (.slice (.leaf .string)))]⟩,
  -- 77: RequestHeader, 662-670
  ⟨"RequestHeader", [("AuthenticationToken", (.leaf .nodeID)), ("Timestamp", (.leaf .dateTime)), ("RequestHandle", (.leaf .uint32)), ("ReturnDiagnostics", (.leaf .uint32)), ("AuditEntryID", (.leaf .string)), ("TimeoutHint", (.leaf .uint32)), ("AdditionalHeader", .ext)]⟩,
  -- 78: ResponseHeader, 674-681
  ⟨"ResponseHeader", [("Timestamp", (.leaf .dateTime)), ("RequestHandle", (.leaf .uint32)), ("ServiceResult", (.leaf .statusCode)), ("ServiceDiagnostics", .diag), ("StringTable", (.slice (.leaf .string))), ("AdditionalHeader", .ext)]⟩,
  -- 79: ServiceFault, 685-687
  ⟨"ServiceFault", [("ResponseHeader", (.struct 78))]⟩,
  -- 80: SessionlessInvokeRequestType, 691-697
  ⟨"SessionlessInvokeRequestType", [("URIsVersion", (.slice (.leaf .uint32))), ("NamespaceURIs", (.slice (.leaf .string))), ("ServerURIs", (.slice (.leaf .string))), ("LocaleIDs", (.slice (.leaf .string))), ("ServiceID", (.leaf .uint32))]⟩,
  -- 81: SessionlessInvokeResponseType, 701-705
  ⟨"SessionlessInvokeResponseType", [("NamespaceURIs", (.slice (.leaf .string))), ("ServerURIs", (.slice (.leaf .string))), ("ServiceID", (.leaf .uint32))]⟩,
  -- 82: FindServersRequest, 709-714
  ⟨"FindServersRequest", [("RequestHeader", (.struct 77)), ("EndpointURL", (.leaf .string)), ("LocaleIDs", (.slice (.leaf .string))), ("ServerURIs", (.slice (.leaf .string)))]⟩,
  -- 83: FindServersResponse, 718-721
  ⟨"FindServersResponse", [("ResponseHeader", (.struct 78)), ("Servers", (.slice (.struct 76)))]⟩,
  -- 84: ServerOnNetwork, 725-730
  ⟨"ServerOnNetwork", [("RecordID", (.leaf .uint32)), ("ServerName", (.leaf .string)), ("DiscoveryURL", (.leaf .string)), ("ServerCapabilities", (.slice (.leaf .string)))]⟩,
  -- 85: FindServersOnNetworkRequest, 734-739
  ⟨"FindServersOnNetworkRequest", [("RequestHeader", (.struct 77)), ("StartingRecordID", (.leaf .uint32)), ("MaxRecordsToReturn", (.leaf .uint32)), ("ServerCapabilityFilter", (.slice (.leaf .string)))]⟩,
  -- 86: FindServersOnNetworkResponse, 743-747
  ⟨"FindServersOnNetworkResponse", [("ResponseHeader", (.struct 78)), ("LastCounterResetTime", (.leaf .dateTime)), ("Servers", (.slice (.struct 84)))]⟩,
  -- 87: UserTokenPolicy, 751-757
  ⟨"UserTokenPolicy", [("PolicyID", (.leaf .string)), ("TokenType", (.enum 27)), ("IssuedTokenType", (.leaf .string)), ("IssuerEndpointURL", (.leaf .string)), ("SecurityPolicyURI", (.leaf .string))]⟩,
  -- 88: EndpointDescription, 761-770
  ⟨"EndpointDescription", [("EndpointURL", (.leaf .string)), ("Server", (.struct 76)), ("ServerCertificate", (.leaf .byteString)), ("SecurityMode", (.enum 26)), ("SecurityPolicyURI", (.leaf .string)), ("UserIdentityTokens", (.slice (.struct 87))), ("TransportProfileURI", (.leaf .string)), ("SecurityLevel", (.leaf .byte))]⟩,
  -- 89: GetEndpointsRequest, 774-779
  ⟨"GetEndpointsRequest", [("RequestHeader", (.struct 77)), ("EndpointURL", (.leaf .string)), ("LocaleIDs", (.slice (.leaf .string))), ("ProfileURIs", (.slice (.leaf .string)))]⟩,
  -- 90: GetEndpointsResponse, 783-786
  ⟨"GetEndpointsResponse", [("ResponseHeader", (.struct 78)), ("Endpoints", (.slice (.struct 88)))]⟩,
  -- 91: RegisteredServer, 790-799
  ⟨"RegisteredServer", [("ServerURI", (.leaf .string)), ("ProductURI", (.leaf .string)), ("ServerNames", (.slice (.leaf .localizedText))), ("ServerType", (.enum 25)), ("GatewayServerURI", (.leaf .string)), ("DiscoveryURLs", (.slice (.leaf .string))), ("SemaphoreFilePath", (.leaf .string)), ("IsOnline", (.leaf .bool))]⟩,
  -- 92: RegisterServerRequest, 803-806
  ⟨"RegisterServerRequest", [("RequestHeader", (.struct 77)), ("Server", (.struct 91))]⟩,
  -- 93: RegisterServerResponse, 810-812
  ⟨"RegisterServerResponse", [("ResponseHeader", (.struct 78))]⟩,
  -- 94: DiscoveryConfiguration, 816-817
  ⟨"DiscoveryConfiguration", []⟩,
  -- 95: MdnsDiscoveryConfiguration, 821-824
  ⟨"MdnsDiscoveryConfiguration", [("MdnsServerName", (.leaf .string)), ("ServerCapabilities", (.slice (.leaf .string)))]⟩,
  -- 96: RegisterServer2Request, 828-832
  ⟨"RegisterServer2Request", [("RequestHeader", (.struct 77)), ("Server", (.struct 91)), ("DiscoveryConfiguration", (.slice .ext))]⟩,
  -- 97: RegisterServer2Response, 836-840
  ⟨"RegisterServer2Response", [("ResponseHeader", (.struct 78)), ("ConfigurationResults", (.slice (.leaf .statusCode))), ("DiagnosticInfos", (.slice .diag))]⟩,
  -- 98: ChannelSecurityToken, 844-849
  ⟨"ChannelSecurityToken", [("ChannelID", (.leaf .uint32)), ("TokenID", (.leaf .uint32)), ("CreatedAt", (.leaf .dateTime)), ("RevisedLifetime", (.leaf .uint32))]⟩,
  -- 99: OpenSecureChannelRequest, 853-860
  ⟨"OpenSecureChannelRequest", [("RequestHeader", (.struct 77)), ("ClientProtocolVersion", (.leaf .uint32)), ("RequestType", (.enum 28)), ("SecurityMode", (.enum 26)), ("ClientNonce", (.leaf .byteString)), ("RequestedLifetime", (.leaf .uint32))]⟩,
  -- 100: OpenSecureChannelResponse, 864-869
  ⟨"OpenSecureChannelResponse", [("ResponseHeader", (.struct 78)), ("ServerProtocolVersion", (.leaf .uint32)), ("SecurityToken", (.struct 98)), ("ServerNonce", (.leaf .byteString))]⟩,
  -- 101: CloseSecureChannelRequest, 873-875
  ⟨"CloseSecureChannelRequest", [("RequestHeader", (.struct 77))]⟩,
  -- 102: CloseSecureChannelResponse, 879-881
  ⟨"CloseSecureChannelResponse", [("ResponseHeader", (.struct 78))]⟩,
  -- 103: SignedSoftwareCertificate, 885-888
  ⟨"SignedSoftwareCertificate", [("CertificateData", (.leaf .byteString)), ("Signature", (.leaf .byteString))]⟩,
  -- 104: SignatureData, 892-895
  ⟨"SignatureData", [("Algorithm", (.leaf .string)), ("Signature", (.leaf .byteString))]⟩,
  -- 105: CreateSessionRequest, 899-909
  ⟨"CreateSessionRequest", [("RequestHeader", (.struct 77)), ("ClientDescription", (.struct 76)), ("ServerURI", (.leaf .string)), ("EndpointURL", (.leaf .string)), ("SessionName", (.leaf .string)), ("ClientNonce", (.leaf .byteString)), ("ClientCertificate", (.leaf .byteString)), ("RequestedSessionTimeout", (.leaf .double)), ("MaxResponseMessageSize", (.leaf .uint32))]⟩,
  -- 106: CreateSessionResponse, 913-924
  ⟨"CreateSessionResponse", [("ResponseHeader", (.struct 78)), ("SessionID", (.leaf .nodeID)), ("AuthenticationToken", (.leaf .nodeID)), ("RevisedSessionTimeout", (.leaf .double)), ("ServerNonce", (.leaf .byteString)), ("ServerCertificate", (.leaf .byteString)), ("ServerEndpoints", (.slice (.struct 88))), ("ServerSoftwareCertificates", (.slice (.struct 103))), ("ServerSignature", (.struct 104)), ("MaxRequestMessageSize", (.leaf .uint32))]⟩,
  -- 107: UserIdentityToken, 928-930
  ⟨"UserIdentityToken", [("PolicyID", (.leaf .string))]⟩]

def structs3 : List Struct := [
  -- 108: AnonymousIdentityToken, 934-936
  ⟨"AnonymousIdentityToken", [("PolicyID", (.leaf .string))]⟩,
  -- 109: UserNameIdentityToken, 940-945
  ⟨"UserNameIdentityToken", [("PolicyID", (.leaf .string)), ("UserName", (.leaf .string)), ("Password", (.leaf .byteString)), ("EncryptionAlgorithm", (.leaf .string))]⟩,
  -- 110: X509IdentityToken, 949-952
  ⟨"X509IdentityToken", [("PolicyID", (.leaf .string)), ("CertificateData", (.leaf .byteString))]⟩,
  -- 111: IssuedIdentityToken, 956-960
  ⟨"IssuedIdentityToken", [("PolicyID", (.leaf .string)), ("TokenData", (.leaf .byteString)), ("EncryptionAlgorithm", (.leaf .string))]⟩,
  -- 112: ActivateSessionRequest, 964-971
  ⟨"ActivateSessionRequest", [("RequestHeader", (.struct 77)), ("ClientSignature", (.struct 104)), ("ClientSoftwareCertificates", (.slice (.struct 103))), ("LocaleIDs", (.slice (.leaf .string))), ("UserIdentityToken", .ext), ("UserTokenSignature", (.struct 104))]⟩,
  -- 113: ActivateSessionResponse, 975-980
  ⟨"ActivateSessionResponse", [("ResponseHeader", (.struct 78)), ("ServerNonce", (.leaf .byteString)), ("Results", (.slice (.leaf .statusCode))), ("DiagnosticInfos", (.slice .diag))]⟩,
  -- 114: CloseSessionRequest, 984-987
  ⟨"CloseSessionRequest", [("RequestHeader", (.struct 77)), ("DeleteSubscriptions", (.leaf .bool))]⟩,
  -- 115: CloseSessionResponse, 991-993
  ⟨"CloseSessionResponse", [("ResponseHeader", (.struct 78))]⟩,
  -- 116: CancelRequest, 997-1000
  ⟨"CancelRequest", [("RequestHeader", (.struct 77)), ("RequestHandle", (.leaf .uint32))]⟩,
  -- 117: CancelResponse, 1004-1007
  ⟨"CancelResponse", [("ResponseHeader", (.struct 78)), ("CancelCount", (.leaf .uint32))]⟩,
  -- 118: NodeAttributes, 1011-1017
  ⟨"NodeAttributes", [("SpecifiedAttributes", (.leaf .uint32)), ("DisplayName", (.leaf .localizedText)), ("Description", (.leaf .localizedText)), ("WriteMask", (.leaf .uint32)), ("UserWriteMask", (.leaf .uint32))]⟩,
  -- 119: ObjectAttributes, 1021-1028
  ⟨"ObjectAttributes", [("SpecifiedAttributes", (.leaf .uint32)), ("DisplayName", (.leaf .localizedText)), ("Description", (.leaf .localizedText)), ("WriteMask", (.leaf .uint32)), ("UserWriteMask", (.leaf .uint32)), ("EventNotifier", (.leaf .byte))]⟩,
  -- 120: VariableAttributes, 1032-1046
  ⟨"VariableAttributes", [("SpecifiedAttributes", (.leaf .uint32)), ("DisplayName", (.leaf .localizedText)), ("Description", (.leaf .localizedText)), ("WriteMask", (.leaf .uint32)), ("UserWriteMask", (.leaf .uint32)), ("Value", .variant), ("DataType", (.leaf .nodeID)), ("ValueRank", (.leaf .int32)), ("ArrayDimensions", (.slice (.leaf .uint32))), ("AccessLevel", (.leaf .byte)), ("UserAccessLevel", (.leaf .byte)), ("MinimumSamplingInterval", (.leaf .double)), ("Historizing", (.leaf .bool))]⟩,
  -- 121: MethodAttributes, 1050-1058
  ⟨"MethodAttributes", [("SpecifiedAttributes", (.leaf .uint32)), ("DisplayName", (.leaf .localizedText)), ("Description", (.leaf .localizedText)), ("WriteMask", (.leaf .uint32)), ("UserWriteMask", (.leaf .uint32)), ("Executable", (.leaf .bool)), ("UserExecutable", (.leaf .bool))]⟩,
  -- 122: ObjectTypeAttributes, 1062-1069
  ⟨"ObjectTypeAttributes", [("SpecifiedAttributes", (.leaf .uint32)), ("DisplayName", (.leaf .localizedText)), ("Description", (.leaf .localizedText)), ("WriteMask", (.leaf .uint32)), ("UserWriteMask", (.leaf .uint32)), ("IsAbstract", (.leaf .bool))]⟩,
  -- 123: VariableTypeAttributes, 1073-1084
  ⟨"VariableTypeAttributes", [("SpecifiedAttributes", (.leaf .uint32)), ("DisplayName", (.leaf .localizedText)), ("Description", (.leaf .localizedText)), ("WriteMask", (.leaf .uint32)), ("UserWriteMask", (.leaf .uint32)), ("Value", .variant), ("DataType", (.leaf .nodeID)), ("ValueRank", (.leaf .int32)), ("ArrayDimensions", (.slice (.leaf .uint32))), ("IsAbstract", (.leaf .bool))]⟩,
  -- 124: ReferenceTypeAttributes, 1088-1097
  ⟨"ReferenceTypeAttributes", [("SpecifiedAttributes", (.leaf .uint32)), ("DisplayName", (.leaf .localizedText)), ("Description", (.leaf .localizedText)), ("WriteMask", (.leaf .uint32)), ("UserWriteMask", (.leaf .uint32)), ("IsAbstract", (.leaf .bool)), ("Symmetric", (.leaf .bool)), ("InverseName", (.leaf .localizedText))]⟩,
  -- 125: DataTypeAttributes, 1101-1108
  ⟨"DataTypeAttributes", [("SpecifiedAttributes", (.leaf .uint32)), ("DisplayName", (.leaf .localizedText)), ("Description", (.leaf .localizedText)), ("WriteMask", (.leaf .uint32)), ("UserWriteMask", (.leaf .uint32)), ("IsAbstract", (.leaf .bool))]⟩,
  -- 126: ViewAttributes, 1112-1120
  ⟨"ViewAttributes", [("SpecifiedAttributes", (.leaf .uint32)), ("DisplayName", (.leaf .localizedText)), ("Description", (.leaf .localizedText)), ("WriteMask", (.leaf .uint32)), ("UserWriteMask", (.leaf .uint32)), ("ContainsNoLoops", (.leaf .bool)), ("EventNotifier", (.leaf .byte))]⟩,
  -- 127: GenericAttributeValue, 1124-1127
  ⟨"GenericAttributeValue", [("AttributeID", (.leaf .uint32)), ("Value", .variant)]⟩,
  -- 128: GenericAttributes, 1131-1138
  ⟨"GenericAttributes", [("SpecifiedAttributes", (.leaf .uint32)), ("DisplayName", (.leaf .localizedText)), ("Description", (.leaf .localizedText)), ("WriteMask", (.leaf .uint32)), ("UserWriteMask", (.leaf .uint32)), ("AttributeValues", (.slice (.struct 127)))]⟩,
  -- 129: AddNodesItem, 1142-1150
  ⟨"AddNodesItem", [("ParentNodeID", (.leaf .expandedNodeID)), ("ReferenceTypeID", (.leaf .nodeID)), ("RequestedNewNodeID", (.leaf .expandedNodeID)), ("BrowseName", (.leaf .qualifiedName)), ("NodeClass", (.enum 18)), ("NodeAttributes", .ext), ("TypeDefinition", (.leaf .expandedNodeID))]⟩,
  -- 130: AddNodesResult, 1154-1157
  ⟨"AddNodesResult", [("StatusCode", (.leaf .statusCode)), ("AddedNodeID", (.leaf .nodeID))]⟩,
  -- 131: AddNodesRequest, 1161-1164
  ⟨"AddNodesRequest", [("RequestHeader", (.struct 77)), ("NodesToAdd", (.slice (.struct 129)))]⟩,
  -- 132: AddNodesResponse, 1168-1172
  ⟨"AddNodesResponse", [("ResponseHeader", (.struct 78)), ("Results", (.slice (.struct 130))), ("DiagnosticInfos", (.slice .diag))]⟩,
  -- 133: AddReferencesItem, 1176-1183
  ⟨"AddReferencesItem", [("SourceNodeID", (.leaf .nodeID)), ("ReferenceTypeID", (.leaf .nodeID)), ("IsForward", (.leaf .bool)), ("TargetServerURI", (.leaf .string)), ("TargetNodeID", (.leaf .expandedNodeID)), ("TargetNodeClass", (.enum 18))]⟩,
  -- 134: AddReferencesRequest, 1187-1190
  ⟨"AddReferencesRequest", [("RequestHeader", (.struct 77)), ("ReferencesToAdd", (.slice (.struct 133)))]⟩,
  -- 135: AddReferencesResponse, 1194-1198
  ⟨"AddReferencesResponse", [("ResponseHeader", (.struct 78)), ("Results", (.slice (.leaf .statusCode))), ("DiagnosticInfos", (.slice .diag))]⟩,
  -- 136: DeleteNodesItem, 1202-1205
  ⟨"DeleteNodesItem", [("NodeID", (.leaf .nodeID)), ("DeleteTargetReferences", (.leaf .bool))]⟩,
  -- 137: DeleteNodesRequest, 1209-1212
  ⟨"DeleteNodesRequest", [("RequestHeader", (.struct 77)), ("NodesToDelete", (.slice (.struct 136)))]⟩,
  -- 138: DeleteNodesResponse, 1216-1220
  ⟨"DeleteNodesResponse", [("ResponseHeader", (.struct 78)), ("Results", (.slice (.leaf .statusCode))), ("DiagnosticInfos", (.slice .diag))]⟩,
  -- 139: DeleteReferencesItem, 1224-1230
  ⟨"DeleteReferencesItem", [("SourceNodeID", (.leaf .nodeID)), ("ReferenceTypeID", (.leaf .nodeID)), ("IsForward", (.leaf .bool)), ("TargetNodeID", (.leaf .expandedNodeID)), ("DeleteBidirectional", (.leaf .bool))]⟩,
  -- 140: DeleteReferencesRequest, 1234-1237
  ⟨"DeleteReferencesRequest", [("RequestHeader", (.struct 77)), ("ReferencesToDelete", (.slice (.struct 139)))]⟩,
  -- 141: DeleteReferencesResponse, 1241-1245
  ⟨"DeleteReferencesResponse", [("ResponseHeader", (.struct 78)), ("Results", (.slice (.leaf .statusCode))), ("DiagnosticInfos", (.slice .diag))]⟩,
  -- 142: ViewDescription, 1249-1253
  ⟨"ViewDescription", [("ViewID", (.leaf .nodeID)), ("Timestamp", (.leaf .dateTime)), ("ViewVersion", (.leaf .uint32))]⟩,
  -- 143: BrowseDescription, 1257-1264
  ⟨"BrowseDescription", [("NodeID", (.leaf .nodeID)), ("BrowseDirection", (.enum 31)), ("ReferenceTypeID", (.leaf .nodeID)), ("IncludeSubtypes", (.leaf .bool)), ("NodeClassMask", (.leaf .uint32)), ("ResultMask", (.leaf .uint32))]⟩]

def structs4 : List Struct := [
  -- 144: ReferenceDescription, 1268-1276
  ⟨"ReferenceDescription", [("ReferenceTypeID", (.leaf .nodeID)), ("IsForward", (.leaf .bool)), ("NodeID", (.leaf .expandedNodeID)), ("BrowseName", (.leaf .qualifiedName)), ("DisplayName", (.leaf .localizedText)), ("NodeClass", (.enum 18)), ("TypeDefinition", (.leaf .expandedNodeID))]⟩,
  -- 145: BrowseResult, 1280-1284
  ⟨"BrowseResult", [("StatusCode", (.leaf .statusCode)), ("ContinuationPoint", (.leaf .byteString)), ("References", (.slice (.struct 144)))]⟩,
  -- 146: BrowseRequest, 1288-1293
  ⟨"BrowseRequest", [("RequestHeader", (.struct 77)), ("View", (.struct 142)), ("RequestedMaxReferencesPerNode", (.leaf .uint32)), ("NodesToBrowse", (.slice (.struct 143)))]⟩,
  -- 147: BrowseResponse, 1297-1301
  ⟨"BrowseResponse", [("ResponseHeader", (.struct 78)), ("Results", (.slice (.struct 145))), ("DiagnosticInfos", (.slice .diag))]⟩,
  -- 148: BrowseNextRequest, 1305-1309
  ⟨"BrowseNextRequest", [("RequestHeader", (.struct 77)), ("ReleaseContinuationPoints", (.leaf .bool)), ("ContinuationPoints", (.slice (.leaf .byteString)))]⟩,
  -- 149: BrowseNextResponse, 1313-1317
  ⟨"BrowseNextResponse", [("ResponseHeader", (.struct 78)), ("Results", (.slice (.struct 145))), ("DiagnosticInfos", (.slice .diag))]⟩,
  -- 150: RelativePathElement, 1321-1326
  ⟨"RelativePathElement", [("ReferenceTypeID", (.leaf .nodeID)), ("IsInverse", (.leaf .bool)), ("IncludeSubtypes", (.leaf .bool)), ("TargetName", (.leaf .qualifiedName))]⟩,
  -- 151: RelativePath, 1330-1332
  ⟨"RelativePath", [("Elements", (.slice (.struct 150)))]⟩,
  -- 152: BrowsePath, 1336-1339
  ⟨"BrowsePath", [("StartingNode", (.leaf .nodeID)), ("RelativePath", (.struct 151))]⟩,
  -- 153: BrowsePathTarget, 1343-1346
  ⟨"BrowsePathTarget", [("TargetID", (.leaf .expandedNodeID)), ("RemainingPathIndex", (.leaf .uint32))]⟩,
  -- 154: BrowsePathResult, 1350-1353
  ⟨"BrowsePathResult", [("StatusCode", (.leaf .statusCode)), ("Targets", (.slice (.struct 153)))]⟩,
  -- 155: TranslateBrowsePathsToNodeIDsRequest, 1357-1360
  ⟨"TranslateBrowsePathsToNodeIDsRequest", [("RequestHeader", (.struct 77)), ("BrowsePaths", (.slice (.struct 152)))]⟩,
  -- 156: TranslateBrowsePathsToNodeIDsResponse, 1364-1368
  ⟨"TranslateBrowsePathsToNodeIDsResponse", [("ResponseHeader", (.struct 78)), ("Results", (.slice (.struct 154))), ("DiagnosticInfos", (.slice .diag))]⟩,
  -- 157: RegisterNodesRequest, 1372-1375
  ⟨"RegisterNodesRequest", [("RequestHeader", (.struct 77)), ("NodesToRegister", (.slice (.leaf .nodeID)))]⟩,
  -- 158: RegisterNodesResponse, 1379-1382
  ⟨"RegisterNodesResponse", [("ResponseHeader", (.struct 78)), ("RegisteredNodeIDs", (.slice (.leaf .nodeID)))]⟩,
  -- 159: UnregisterNodesRequest, 1386-1389
  ⟨"UnregisterNodesRequest", [("RequestHeader", (.struct 77)), ("NodesToUnregister", (.slice (.leaf .nodeID)))]⟩,
  -- 160: UnregisterNodesResponse, 1393-1395
  ⟨"UnregisterNodesResponse", [("ResponseHeader", (.struct 78))]⟩,
  -- 161: EndpointConfiguration, 1399-1409
  ⟨"EndpointConfiguration", [("OperationTimeout", (.leaf .int32)), ("UseBinaryEncoding", (.leaf .bool)), ("MaxStringLength", (.leaf .int32)), ("MaxByteStringLength", (.leaf .int32)), ("MaxArrayLength", (.leaf .int32)), ("MaxMessageSize", (.leaf .int32)), ("MaxBufferSize", (.leaf .int32)), ("ChannelLifetime", (.leaf .int32)), ("SecurityTokenLifetime", (.leaf .int32))]⟩,
  -- 162: QueryDataDescription, 1413-1417
  ⟨"QueryDataDescription", [("RelativePath", (.struct 151)), ("AttributeID", (.leaf .uint32)), ("IndexRange", (.leaf .string))]⟩,
  -- 163: NodeTypeDescription, 1421-1425
  ⟨"NodeTypeDescription", [("TypeDefinitionNode", (.leaf .expandedNodeID)), ("IncludeSubTypes", (.leaf .bool)), ("DataToReturn", (.slice (.struct 162)))]⟩,
  -- 164: QueryDataSet, 1429-1433
  ⟨"QueryDataSet", [("NodeID", (.leaf .expandedNodeID)), ("TypeDefinitionNode", (.leaf .expandedNodeID)), ("Values", (.slice .variant))]⟩,
  -- 165: NodeReference, 1437-1442
  ⟨"NodeReference", [("NodeID", (.leaf .nodeID)), ("ReferenceTypeID", (.leaf .nodeID)), ("IsForward", (.leaf .bool)), ("ReferencedNodeIDs", (.slice (.leaf .nodeID)))]⟩,
  -- 166: ContentFilterElement, 1446-1449
  ⟨"ContentFilterElement", [("FilterOperator", (.enum 33)), ("FilterOperands", (.slice .ext))]⟩,
  -- 167: ContentFilter, 1453-1455
  ⟨"ContentFilter", [("Elements", (.slice (.struct 166)))]⟩,
  -- 168: FilterOperand, 1459-1460
  ⟨"FilterOperand", []⟩,
  -- 169: ElementOperand, 1464-1466
  ⟨"ElementOperand", [("Index", (.leaf .uint32))]⟩,
  -- 170: LiteralOperand, 1470-1472
  ⟨"LiteralOperand", [("Value", .variant)]⟩,
  -- 171: AttributeOperand, 1476-1482
  ⟨"AttributeOperand", [("NodeID", (.leaf .nodeID)), ("Alias", (.leaf .string)), ("BrowsePath", (.struct 151)), ("AttributeID", (.leaf .uint32)), ("IndexRange", (.leaf .string))]⟩,
  -- 172: SimpleAttributeOperand, 1486-1491
  ⟨"SimpleAttributeOperand", [("TypeDefinitionID", (.leaf .nodeID)), ("BrowsePath", (.slice (.leaf .qualifiedName))), ("AttributeID", (.leaf .uint32)), ("IndexRange", (.leaf .string))]⟩,
  -- 173: ContentFilterElementResult, 1495-1499
  ⟨"ContentFilterElementResult", [("StatusCode", (.leaf .statusCode)), ("OperandStatusCodes", (.slice (.leaf .statusCode))), ("OperandDiagnosticInfos", (.slice .diag))]⟩,
  -- 174: ContentFilterResult, 1503-1506
  ⟨"ContentFilterResult", [("ElementResults", (.slice (.struct 173))), ("ElementDiagnosticInfos", (.slice .diag))]⟩,
  -- 175: ParsingResult, 1510-1514
  ⟨"ParsingResult", [("StatusCode", (.leaf .statusCode)), ("DataStatusCodes", (.slice (.leaf .statusCode))), ("DataDiagnosticInfos", (.slice .diag))]⟩,
  -- 176: QueryFirstRequest, 1518-1525
  ⟨"QueryFirstRequest", [("RequestHeader", (.struct 77)), ("View", (.struct 142)), ("NodeTypes", (.slice (.struct 163))), ("Filter", (.struct 167)), ("MaxDataSetsToReturn", (.leaf .uint32)), ("MaxReferencesToReturn", (.leaf .uint32))]⟩,
  -- 177: QueryFirstResponse, 1529-1536
  ⟨"QueryFirstResponse", [("ResponseHeader", (.struct 78)), ("QueryDataSets", (.slice (.struct 164))), ("ContinuationPoint", (.leaf .byteString)), ("ParsingResults", (.slice (.struct 175))), ("DiagnosticInfos", (.slice .diag)), ("FilterResult", (.struct 174))]⟩,
  -- 178: QueryNextRequest, 1540-1544
  ⟨"QueryNextRequest", [("RequestHeader", (.struct 77)), ("ReleaseContinuationPoint", (.leaf .bool)), ("ContinuationPoint", (.leaf .byteString))]⟩,
  -- 179: QueryNextResponse, 1548-1552
  ⟨"QueryNextResponse", [("ResponseHeader", (.struct 78)), ("QueryDataSets", (.slice (.struct 164))), ("RevisedContinuationPoint", (.leaf .byteString))]⟩]

def structs5 : List Struct := [
  -- 180: ReadValueID, 1556-1561
  ⟨"ReadValueID", [("NodeID", (.leaf .nodeID)), ("AttributeID", (.leaf .uint32)), ("IndexRange", (.leaf .string)), ("DataEncoding", (.leaf .qualifiedName))]⟩,
  -- 181: ReadRequest, 1565-1570
  ⟨"ReadRequest", [("RequestHeader", (.struct 77)), ("MaxAge", (.leaf .double)), ("TimestampsToReturn", (.enum 34)), ("NodesToRead", (.slice (.struct 180)))]⟩,
  -- 182: ReadResponse, 1574-1578
  ⟨"ReadResponse", [("ResponseHeader", (.struct 78)), ("Results", (.slice .dataValue)), ("DiagnosticInfos", (.slice .diag))]⟩,
  -- 183: HistoryReadValueID, 1582-1587
  ⟨"HistoryReadValueID", [("NodeID", (.leaf .nodeID)), ("IndexRange", (.leaf .string)), ("DataEncoding", (.leaf .qualifiedName)), ("ContinuationPoint", (.leaf .byteString))]⟩,
  -- 184: HistoryReadResult, 1591-1595
  ⟨"HistoryReadResult", [("StatusCode", (.leaf .statusCode)), ("ContinuationPoint", (.leaf .byteString)), ("HistoryData", .ext)]⟩,
  -- 185: HistoryReadDetails, 1599-1600
  ⟨"HistoryReadDetails", []⟩,
  -- 186: ReadEventDetails, 1604-1609
  ⟨"ReadEventDetails", [("NumValuesPerNode", (.leaf .uint32)), ("StartTime", (.leaf .dateTime)), ("EndTime", (.leaf .dateTime)), ("Filter", (.struct 216))]⟩,
  -- 187: ReadRawModifiedDetails, 1613-1619
  ⟨"ReadRawModifiedDetails", [("IsReadModified", (.leaf .bool)), ("StartTime", (.leaf .dateTime)), ("EndTime", (.leaf .dateTime)), ("NumValuesPerNode", (.leaf .uint32)), ("ReturnBounds", (.leaf .bool))]⟩,
  -- 188: ReadProcessedDetails, 1623-1629
  ⟨"ReadProcessedDetails", [("StartTime", (.leaf .dateTime)), ("EndTime", (.leaf .dateTime)), ("ProcessingInterval", (.leaf .double)), ("AggregateType", (.slice (.leaf .nodeID))), ("AggregateConfiguration", (.struct 217))]⟩,
  -- 189: ReadAtTimeDetails, 1633-1636
  ⟨"ReadAtTimeDetails", [("ReqTimes", (.slice (.leaf .dateTime))), ("UseSimpleBounds", (.leaf .bool))]⟩,
  -- 190: ReadAnnotationDataDetails, 1640-1642
  ⟨"ReadAnnotationDataDetails", [("ReqTimes", (.slice (.leaf .dateTime)))]⟩,
  -- 191: HistoryData, 1646-1648
  ⟨"HistoryData", [("DataValues", (.slice .dataValue))]⟩,
  -- 192: ModificationInfo, 1652-1656
  ⟨"ModificationInfo", [("ModificationTime", (.leaf .dateTime)), ("UpdateType", (.enum 35)), ("UserName", (.leaf .string))]⟩,
  -- 193: HistoryModifiedData, 1660-1663
  ⟨"HistoryModifiedData", [("DataValues", (.slice .dataValue)), ("ModificationInfos", (.slice (.struct 192)))]⟩,
  -- 194: HistoryEvent, 1667-1669
  ⟨"HistoryEvent", [("Events", (.slice (.struct 249)))]⟩,
  -- 195: HistoryReadRequest, 1673-1679
  ⟨"HistoryReadRequest", [("RequestHeader", (.struct 77)), ("HistoryReadDetails", .ext), ("TimestampsToReturn", (.enum 34)), ("ReleaseContinuationPoints", (.leaf .bool)), ("NodesToRead", (.slice (.struct 183)))]⟩,
  -- 196: HistoryReadResponse, 1683-1687
  ⟨"HistoryReadResponse", [("ResponseHeader", (.struct 78)), ("Results", (.slice (.struct 184))), ("DiagnosticInfos", (.slice .diag))]⟩,
  -- 197: WriteValue, 1691-1696
  ⟨"WriteValue", [("NodeID", (.leaf .nodeID)), ("AttributeID", (.leaf .uint32)), ("IndexRange", (.leaf .string)), ("Value", .dataValue)]⟩,
  -- 198: WriteRequest, 1700-1703
  ⟨"WriteRequest", [("RequestHeader", (.struct 77)), ("NodesToWrite", (.slice (.struct 197)))]⟩,
  -- 199: WriteResponse, 1707-1711
  ⟨"WriteResponse", [("ResponseHeader", (.struct 78)), ("Results", (.slice (.leaf .statusCode))), ("DiagnosticInfos", (.slice .diag))]⟩,
  -- 200: HistoryUpdateDetails, 1715-1717
  ⟨"HistoryUpdateDetails", [("NodeID", (.leaf .nodeID))]⟩,
  -- 201: UpdateDataDetails, 1721-1725
  ⟨"UpdateDataDetails", [("NodeID", (.leaf .nodeID)), ("PerformInsertReplace", (.enum 36)), ("UpdateValues", (.slice .dataValue))]⟩,
  -- 202: UpdateStructureDataDetails, 1729-1733
  ⟨"UpdateStructureDataDetails", [("NodeID", (.leaf .nodeID)), ("PerformInsertReplace", (.enum 36)), ("UpdateValues", (.slice .dataValue))]⟩,
  -- 203: UpdateEventDetails, 1737-1742
  ⟨"UpdateEventDetails", [("NodeID", (.leaf .nodeID)), ("PerformInsertReplace", (.enum 36)), ("Filter", (.struct 216)), ("EventData", (.slice (.struct 249)))]⟩,
  -- 204: DeleteRawModifiedDetails, 1746-1751
  ⟨"DeleteRawModifiedDetails", [("NodeID", (.leaf .nodeID)), ("IsDeleteModified", (.leaf .bool)), ("StartTime", (.leaf .dateTime)), ("EndTime", (.leaf .dateTime))]⟩,
  -- 205: DeleteAtTimeDetails, 1755-1758
  ⟨"DeleteAtTimeDetails", [("NodeID", (.leaf .nodeID)), ("ReqTimes", (.slice (.leaf .dateTime)))]⟩,
  -- 206: DeleteEventDetails, 1762-1765
  ⟨"DeleteEventDetails", [("NodeID", (.leaf .nodeID)), ("EventIDs", (.slice (.leaf .byteString)))]⟩,
  -- 207: HistoryUpdateResult, 1769-1773
  ⟨"HistoryUpdateResult", [("StatusCode", (.leaf .statusCode)), ("OperationResults", (.slice (.leaf .statusCode))), ("DiagnosticInfos", (.slice .diag))]⟩,
  -- 208: HistoryUpdateRequest, 1777-1780
  ⟨"HistoryUpdateRequest", [("RequestHeader", (.struct 77)), ("HistoryUpdateDetails", (.slice .ext))]⟩,
  -- 209: HistoryUpdateResponse, 1784-1788
  ⟨"HistoryUpdateResponse", [("ResponseHeader", (.struct 78)), ("Results", (.slice (.struct 207))), ("DiagnosticInfos", (.slice .diag))]⟩,
  -- 210: CallMethodRequest, 1792-1796
  ⟨"CallMethodRequest", [("ObjectID", (.leaf .nodeID)), ("MethodID", (.leaf .nodeID)), ("InputArguments", (.slice .variant))]⟩,
  -- 211: CallMethodResult, 1800-1805
  ⟨"CallMethodResult", [("StatusCode", (.leaf .statusCode)), ("InputArgumentResults", (.slice (.leaf .statusCode))), ("InputArgumentDiagnosticInfos", (.slice .diag)), ("OutputArguments", (.slice .variant))]⟩,
  -- 212: CallRequest, 1809-1812
  ⟨"CallRequest", [("RequestHeader", (.struct 77)), ("MethodsToCall", (.slice (.struct 210)))]⟩,
  -- 213: CallResponse, 1816-1820
  ⟨"CallResponse", [("ResponseHeader", (.struct 78)), ("Results", (.slice (.struct 211))), ("DiagnosticInfos", (.slice .diag))]⟩,
  -- 214: MonitoringFilter, 1824-1825
  ⟨"MonitoringFilter", []⟩,
  -- 215: DataChangeFilter, 1829-1833
  ⟨"DataChangeFilter", [("Trigger", (.enum 38)), ("DeadbandType", (.leaf .uint32)), ("DeadbandValue", (.leaf .double))]⟩]

def structs6 : List Struct := [
  -- 216: EventFilter, 1837-1840
  ⟨"EventFilter", [("SelectClauses", (.slice (.struct 172))), ("WhereClause", (.struct 167))]⟩,
  -- 217: AggregateConfiguration, 1844-1850
  ⟨"AggregateConfiguration", [("UseServerCapabilitiesDefaults", (.leaf .bool)), ("TreatUncertainAsBad", (.leaf .bool)), ("PercentDataBad", (.leaf .byte)), ("PercentDataGood", (.leaf .byte)), ("UseSlopedExtrapolation", (.leaf .bool))]⟩,
  -- 218: AggregateFilter, 1854-1859
  ⟨"AggregateFilter", [("StartTime", (.leaf .dateTime)), ("AggregateType", (.leaf .nodeID)), ("ProcessingInterval", (.leaf .double)), ("AggregateConfiguration", (.struct 217))]⟩,
  -- 219: MonitoringFilterResult, 1863-1864
  ⟨"MonitoringFilterResult", []⟩,
  -- 220: EventFilterResult, 1868-1872
  ⟨"EventFilterResult", [("SelectClauseResults", (.slice (.leaf .statusCode))), ("SelectClauseDiagnosticInfos", (.slice .diag)), ("WhereClauseResult", (.struct 174))]⟩,
  -- 221: AggregateFilterResult, 1876-1880
  ⟨"AggregateFilterResult", [("RevisedStartTime", (.leaf .dateTime)), ("RevisedProcessingInterval", (.leaf .double)), ("RevisedAggregateConfiguration", (.struct 217))]⟩,
  -- 222: MonitoringParameters, 1884-1890
  ⟨"MonitoringParameters", [("ClientHandle", (.leaf .uint32)), ("SamplingInterval", (.leaf .double)), ("Filter", .ext), ("QueueSize", (.leaf .uint32)), ("DiscardOldest", (.leaf .bool))]⟩,
  -- 223: MonitoredItemCreateRequest, 1894-1898
  ⟨"MonitoredItemCreateRequest", [("ItemToMonitor", (.struct 180)), ("MonitoringMode", (.enum 37)), ("RequestedParameters", (.struct 222))]⟩,
  -- 224: MonitoredItemCreateResult, 1902-1908
  ⟨"MonitoredItemCreateResult", [("StatusCode", (.leaf .statusCode)), ("MonitoredItemID", (.leaf .uint32)), ("RevisedSamplingInterval", (.leaf .double)), ("RevisedQueueSize", (.leaf .uint32)), ("FilterResult", .ext)]⟩,
  -- 225: CreateMonitoredItemsRequest, 1912-1917
  ⟨"CreateMonitoredItemsRequest", [("RequestHeader", (.struct 77)), ("SubscriptionID", (.leaf .uint32)), ("TimestampsToReturn", (.enum 34)), ("ItemsToCreate", (.slice (.struct 223)))]⟩,
  -- 226: CreateMonitoredItemsResponse, 1921-1925
  ⟨"CreateMonitoredItemsResponse", [("ResponseHeader", (.struct 78)), ("Results", (.slice (.struct 224))), ("DiagnosticInfos", (.slice .diag))]⟩,
  -- 227: MonitoredItemModifyRequest, 1929-1932
  ⟨"MonitoredItemModifyRequest", [("MonitoredItemID", (.leaf .uint32)), ("RequestedParameters", (.struct 222))]⟩,
  -- 228: MonitoredItemModifyResult, 1936-1941
  ⟨"MonitoredItemModifyResult", [("StatusCode", (.leaf .statusCode)), ("RevisedSamplingInterval", (.leaf .double)), ("RevisedQueueSize", (.leaf .uint32)), ("FilterResult", .ext)]⟩,
  -- 229: ModifyMonitoredItemsRequest, 1945-1950
  ⟨"ModifyMonitoredItemsRequest", [("RequestHeader", (.struct 77)), ("SubscriptionID", (.leaf .uint32)), ("TimestampsToReturn", (.enum 34)), ("ItemsToModify", (.slice (.struct 227)))]⟩,
  -- 230: ModifyMonitoredItemsResponse, 1954-1958
  ⟨"ModifyMonitoredItemsResponse", [("ResponseHeader", (.struct 78)), ("Results", (.slice (.struct 228))), ("DiagnosticInfos", (.slice .diag))]⟩,
  -- 231: SetMonitoringModeRequest, 1962-1967
  ⟨"SetMonitoringModeRequest", [("RequestHeader", (.struct 77)), ("SubscriptionID", (.leaf .uint32)), ("MonitoringMode", (.enum 37)), ("MonitoredItemIDs", (.slice (.leaf .uint32)))]⟩,
  -- 232: SetMonitoringModeResponse, 1971-1975
  ⟨"SetMonitoringModeResponse", [("ResponseHeader", (.struct 78)), ("Results", (.slice (.leaf .statusCode))), ("DiagnosticInfos", (.slice .diag))]⟩,
  -- 233: SetTriggeringRequest, 1979-1985
  ⟨"SetTriggeringRequest", [("RequestHeader", (.struct 77)), ("SubscriptionID", (.leaf .uint32)), ("TriggeringItemID", (.leaf .uint32)), ("LinksToAdd", (.slice (.leaf .uint32))), ("LinksToRemove", (.slice (.leaf .uint32)))]⟩,
  -- 234: SetTriggeringResponse, 1989-1995
  ⟨"SetTriggeringResponse", [("ResponseHeader", (.struct 78)), ("AddResults", (.slice (.leaf .statusCode))), ("AddDiagnosticInfos", (.slice .diag)), ("RemoveResults", (.slice (.leaf .statusCode))), ("RemoveDiagnosticInfos", (.slice .diag))]⟩,
  -- 235: DeleteMonitoredItemsRequest, 1999-2003
  ⟨"DeleteMonitoredItemsRequest", [("RequestHeader", (.struct 77)), ("SubscriptionID", (.leaf .uint32)), ("MonitoredItemIDs", (.slice (.leaf .uint32)))]⟩,
  -- 236: DeleteMonitoredItemsResponse, 2007-2011
  ⟨"DeleteMonitoredItemsResponse", [("ResponseHeader", (.struct 78)), ("Results", (.slice (.leaf .statusCode))), ("DiagnosticInfos", (.slice .diag))]⟩,
  -- 237: CreateSubscriptionRequest, 2015-2023
  ⟨"CreateSubscriptionRequest", [("RequestHeader", (.struct 77)), ("RequestedPublishingInterval", (.leaf .double)), ("RequestedLifetimeCount", (.leaf .uint32)), ("RequestedMaxKeepAliveCount", (.leaf .uint32)), ("MaxNotificationsPerPublish", (.leaf .uint32)), ("PublishingEnabled", (.leaf .bool)), ("Priority", (.leaf .byte))]⟩,
  -- 238: CreateSubscriptionResponse, 2027-2033
  ⟨"CreateSubscriptionResponse", [("ResponseHeader", (.struct 78)), ("SubscriptionID", (.leaf .uint32)), ("RevisedPublishingInterval", (.leaf .double)), ("RevisedLifetimeCount", (.leaf .uint32)), ("RevisedMaxKeepAliveCount", (.leaf .uint32))]⟩,
  -- 239: ModifySubscriptionRequest, 2037-2045
  ⟨"ModifySubscriptionRequest", [("RequestHeader", (.struct 77)), ("SubscriptionID", (.leaf .uint32)), ("RequestedPublishingInterval", (.leaf .double)), ("RequestedLifetimeCount", (.leaf .uint32)), ("RequestedMaxKeepAliveCount", (.leaf .uint32)), ("MaxNotificationsPerPublish", (.leaf .uint32)), ("Priority", (.leaf .byte))]⟩,
  -- 240: ModifySubscriptionResponse, 2049-2054
  ⟨"ModifySubscriptionResponse", [("ResponseHeader", (.struct 78)), ("RevisedPublishingInterval", (.leaf .double)), ("RevisedLifetimeCount", (.leaf .uint32)), ("RevisedMaxKeepAliveCount", (.leaf .uint32))]⟩,
  -- 241: SetPublishingModeRequest, 2058-2062
  ⟨"SetPublishingModeRequest", [("RequestHeader", (.struct 77)), ("PublishingEnabled", (.leaf .bool)), ("SubscriptionIDs", (.slice (.leaf .uint32)))]⟩,
  -- 242: SetPublishingModeResponse, 2066-2070
  ⟨"SetPublishingModeResponse", [("ResponseHeader", (.struct 78)), ("Results", (.slice (.leaf .statusCode))), ("DiagnosticInfos", (.slice .diag))]⟩,
  -- 243: NotificationMessage, 2074-2078
  ⟨"NotificationMessage", [("SequenceNumber", (.leaf .uint32)), ("PublishTime", (.leaf .dateTime)), ("NotificationData", (.slice .ext))]⟩,
  -- 244: NotificationData, 2082-2083
  ⟨"NotificationData", []⟩,
  -- 245: DataChangeNotification, 2087-2090
  ⟨"DataChangeNotification", [("MonitoredItems", (.slice (.struct 246))), ("DiagnosticInfos", (.slice .diag))]⟩,
  -- 246: MonitoredItemNotification, 2094-2097
  ⟨"MonitoredItemNotification", [("ClientHandle", (.leaf .uint32)), ("Value", .dataValue)]⟩,
  -- 247: EventNotificationList, 2101-2103
  ⟨"EventNotificationList", [("Events", (.slice (.struct 248)))]⟩,
  -- 248: EventFieldList, 2107-2110
  ⟨"EventFieldList", [("ClientHandle", (.leaf .uint32)), ("EventFields", (.slice .variant))]⟩,
  -- 249: HistoryEventFieldList, 2114-2116
  ⟨"HistoryEventFieldList", [("EventFields", (.slice .variant))]⟩,
  -- 250: StatusChangeNotification, 2120-2123
  ⟨"StatusChangeNotification", [("Status", (.leaf .statusCode)), ("DiagnosticInfo", .diag)]⟩,
  -- 251: SubscriptionAcknowledgement, 2127-2130
  ⟨"SubscriptionAcknowledgement", [("SubscriptionID", (.leaf .uint32)), ("SequenceNumber", (.leaf .uint32))]⟩]

def structs7 : List Struct := [
  -- 252: PublishRequest, 2134-2137
  ⟨"PublishRequest", [("RequestHeader", (.struct 77)), ("SubscriptionAcknowledgements", (.slice (.struct 251)))]⟩,
  -- 253: PublishResponse, 2141-2149
  ⟨"PublishResponse", [("ResponseHeader", (.struct 78)), ("SubscriptionID", (.leaf .uint32)), ("AvailableSequenceNumbers", (.slice (.leaf .uint32))), ("MoreNotifications", (.leaf .bool)), ("NotificationMessage", (.struct 243)), ("Results", (.slice (.leaf .statusCode))), ("DiagnosticInfos", (.slice .diag))]⟩,
  -- 254: RepublishRequest, 2153-2157
  ⟨"RepublishRequest", [("RequestHeader", (.struct 77)), ("SubscriptionID", (.leaf .uint32)), ("RetransmitSequenceNumber", (.leaf .uint32))]⟩,
  -- 255: RepublishResponse, 2161-2164
  ⟨"RepublishResponse", [("ResponseHeader", (.struct 78)), ("NotificationMessage", (.struct 243))]⟩,
  -- 256: TransferResult, 2168-2171
  ⟨"TransferResult", [("StatusCode", (.leaf .statusCode)), ("AvailableSequenceNumbers", (.slice (.leaf .uint32)))]⟩,
  -- 257: TransferSubscriptionsRequest, 2175-2179
  ⟨"TransferSubscriptionsRequest", [("RequestHeader", (.struct 77)), ("SubscriptionIDs", (.slice (.leaf .uint32))), ("SendInitialValues", (.leaf .bool))]⟩,
  -- 258: TransferSubscriptionsResponse, 2183-2187
  ⟨"TransferSubscriptionsResponse", [("ResponseHeader", (.struct 78)), ("Results", (.slice (.struct 256))), ("DiagnosticInfos", (.slice .diag))]⟩,
  -- 259: DeleteSubscriptionsRequest, 2191-2194
  ⟨"DeleteSubscriptionsRequest", [("RequestHeader", (.struct 77)), ("SubscriptionIDs", (.slice (.leaf .uint32)))]⟩,
  -- 260: DeleteSubscriptionsResponse, 2198-2202
  ⟨"DeleteSubscriptionsResponse", [("ResponseHeader", (.struct 78)), ("Results", (.slice (.leaf .statusCode))), ("DiagnosticInfos", (.slice .diag))]⟩,
  -- 261: BuildInfo, 2206-2213
  ⟨"BuildInfo", [("ProductURI", (.leaf .string)), ("ManufacturerName", (.leaf .string)), ("ProductName", (.leaf .string)), ("SoftwareVersion", (.leaf .string)), ("BuildNumber", (.leaf .string)), ("BuildDate", (.leaf .dateTime))]⟩,
  -- 262: RedundantServerDataType, 2217-2221
  ⟨"RedundantServerDataType", [("ServerID", (.leaf .string)), ("ServiceLevel", (.leaf .byte)), ("ServerState", (.enum 41))]⟩,
  -- 263: EndpointURLListDataType, 2225-2227
  ⟨"EndpointURLListDataType", [("EndpointURLList", (.slice (.leaf .string)))]⟩,
  -- 264: NetworkGroupDataType, 2231-2234
  ⟨"NetworkGroupDataType", [("ServerURI", (.leaf .string)), ("NetworkPaths", (.slice (.struct 263)))]⟩,
  -- 265: SamplingIntervalDiagnosticsDataType, 2238-2243
  ⟨"SamplingIntervalDiagnosticsDataType", [("SamplingInterval", (.leaf .double)), ("MonitoredItemCount", (.leaf .uint32)), ("MaxMonitoredItemCount", (.leaf .uint32)), ("DisabledMonitoredItemCount", (.leaf .uint32))]⟩,
  -- 266: ServerDiagnosticsSummaryDataType, 2247-2260
  ⟨"ServerDiagnosticsSummaryDataType", [("ServerViewCount", (.leaf .uint32)), ("CurrentSessionCount", (.leaf .uint32)), ("CumulatedSessionCount", (.leaf .uint32)), ("SecurityRejectedSessionCount", (.leaf .uint32)), ("RejectedSessionCount", (.leaf .uint32)), ("SessionTimeoutCount", (.leaf .uint32)), ("SessionAbortCount", (.leaf .uint32)), ("CurrentSubscriptionCount", (.leaf .uint32)), ("CumulatedSubscriptionCount", (.leaf .uint32)), ("PublishingIntervalCount", (.leaf .uint32)), ("SecurityRejectedRequestsCount", (.leaf .uint32)), ("RejectedRequestsCount", (.leaf .uint32))]⟩,
  -- 267: ServerStatusDataType, 2264-2271
  ⟨"ServerStatusDataType", [("StartTime", (.leaf .dateTime)), ("CurrentTime", (.leaf .dateTime)), ("State", (.enum 41)), ("BuildInfo", (.struct 261)), ("SecondsTillShutdown", (.leaf .uint32)), ("ShutdownReason", (.leaf .localizedText))]⟩,
  -- 268: SessionDiagnosticsDataType, 2275-2319
  ⟨"SessionDiagnosticsDataType", [("SessionID", (.leaf .nodeID)), ("SessionName", (.leaf .string)), ("ClientDescription", (.struct 76)), ("ServerURI", (.leaf .string)), ("EndpointURL", (.leaf .string)), ("LocaleIDs", (.slice (.leaf .string))), ("ActualSessionTimeout", (.leaf .double)), ("MaxResponseMessageSize", (.leaf .uint32)), ("ClientConnectionTime", (.leaf .dateTime)), ("ClientLastContactTime", (.leaf .dateTime)), ("CurrentSubscriptionsCount", (.leaf .uint32)), ("CurrentMonitoredItemsCount", (.leaf .uint32)), ("CurrentPublishRequestsInQueue", (.leaf .uint32)), ("TotalRequestCount", (.struct 270)), ("UnauthorizedRequestCount", (.leaf .uint32)), ("ReadCount", (.struct 270)), ("HistoryReadCount", (.struct 270)), ("WriteCount", (.struct 270)), ("HistoryUpdateCount", (.struct 270)), ("CallCount", (.struct 270)), ("CreateMonitoredItemsCount", (.struct 270)), ("ModifyMonitoredItemsCount", (.struct 270)), ("SetMonitoringModeCount", (.struct 270)), ("SetTriggeringCount", (.struct 270)), ("DeleteMonitoredItemsCount", (.struct 270)), ("CreateSubscriptionCount", (.struct 270)), ("ModifySubscriptionCount", (.struct 270)), ("SetPublishingModeCount", (.struct 270)), ("PublishCount", (.struct 270)), ("RepublishCount", (.struct 270)), ("TransferSubscriptionsCount", (.struct 270)), ("DeleteSubscriptionsCount", (.struct 270)), ("AddNodesCount", (.struct 270)), ("AddReferencesCount", (.struct 270)), ("DeleteNodesCount", (.struct 270)), ("DeleteReferencesCount", (.struct 270)), ("BrowseCount", (.struct 270)), ("BrowseNextCount", (.struct 270)), ("TranslateBrowsePathsToNodeIDsCount", (.struct 270)), ("QueryFirstCount", (.struct 270)), ("QueryNextCount", (.struct 270)), ("RegisterNodesCount", (.struct 270)), ("UnregisterNodesCount", (.struct 270))]⟩,
  -- 269: SessionSecurityDiagnosticsDataType, 2323-2333
  ⟨"SessionSecurityDiagnosticsDataType", [("SessionID", (.leaf .nodeID)), ("ClientUserIDOfSession", (.leaf .string)), ("ClientUserIDHistory", (.slice (.leaf .string))), ("AuthenticationMechanism", (.leaf .string)), ("Encoding", (.leaf .string)), ("TransportProtocol", (.leaf .string)), ("SecurityMode", (.enum 26)), ("SecurityPolicyURI", (.leaf .string)), ("ClientCertificate", (.leaf .byteString))]⟩,
  -- 270: ServiceCounterDataType, 2337-2340
  ⟨"ServiceCounterDataType", [("TotalCount", (.leaf .uint32)), ("ErrorCount", (.leaf .uint32))]⟩,
  -- 271: StatusResult, 2344-2347
  ⟨"StatusResult", [("StatusCode", (.leaf .statusCode)), ("DiagnosticInfo", .diag)]⟩,
  -- 272: SubscriptionDiagnosticsDataType, 2351-2383
  ⟨"SubscriptionDiagnosticsDataType", [("SessionID", (.leaf .nodeID)), ("SubscriptionID", (.leaf .uint32)), ("Priority", (.leaf .byte)), ("PublishingInterval", (.leaf .double)), ("MaxKeepAliveCount", (.leaf .uint32)), ("MaxLifetimeCount", (.leaf .uint32)), ("MaxNotificationsPerPublish", (.leaf .uint32)), ("PublishingEnabled", (.leaf .bool)), ("ModifyCount", (.leaf .uint32)), ("EnableCount", (.leaf .uint32)), ("DisableCount", (.leaf .uint32)), ("RepublishRequestCount", (.leaf .uint32)), ("RepublishMessageRequestCount", (.leaf .uint32)), ("RepublishMessageCount", (.leaf .uint32)), ("TransferRequestCount", (.leaf .uint32)), ("TransferredToAltClientCount", (.leaf .uint32)), ("TransferredToSameClientCount", (.leaf .uint32)), ("PublishRequestCount", (.leaf .uint32)), ("DataChangeNotificationsCount", (.leaf .uint32)), ("EventNotificationsCount", (.leaf .uint32)), ("NotificationsCount", (.leaf .uint32)), ("LatePublishRequestCount", (.leaf .uint32)), ("CurrentKeepAliveCount", (.leaf .uint32)), ("CurrentLifetimeCount", (.leaf .uint32)), ("UnacknowledgedMessageCount", (.leaf .uint32)), ("DiscardedMessageCount", (.leaf .uint32)), ("MonitoredItemCount", (.leaf .uint32)), ("DisabledMonitoredItemCount", (.leaf .uint32)), ("MonitoringQueueOverflowCount", (.leaf .uint32)), ("NextSequenceNumber", (.leaf .uint32)), ("EventQueueOverFlowCount", (.leaf .uint32))]⟩,
  -- 273: ModelChangeStructureDataType, 2387-2391
  ⟨"ModelChangeStructureDataType", [("Affected", (.leaf .nodeID)), ("AffectedType", (.leaf .nodeID)), ("Verb", (.leaf .byte))]⟩,
  -- 274: SemanticChangeStructureDataType, 2395-2398
  ⟨"SemanticChangeStructureDataType", [("Affected", (.leaf .nodeID)), ("AffectedType", (.leaf .nodeID))]⟩,
  -- 275: Range, 2402-2405
  ⟨"Range", [("Low", (.leaf .double)), ("High", (.leaf .double))]⟩,
  -- 276: EUInformation, 2409-2414
  ⟨"EUInformation", [("NamespaceURI", (.leaf .string)), ("UnitID", (.leaf .int32)), ("DisplayName", (.leaf .localizedText)), ("Description", (.leaf .localizedText))]⟩,
  -- 277: ComplexNumberType, 2418-2421
  ⟨"ComplexNumberType", [("Real", (.leaf .float)), ("Imaginary", (.leaf .float))]⟩,
  -- 278: DoubleComplexNumberType, 2425-2428
  ⟨"DoubleComplexNumberType", [("Real", (.leaf .double)), ("Imaginary", (.leaf .double))]⟩,
  -- 279: AxisInformation, 2432-2438
  ⟨"AxisInformation", [("EngineeringUnits", (.struct 276)), ("EURange", (.struct 275)), ("Title", (.leaf .localizedText)), ("AxisScaleType", (.enum 43)), ("AxisSteps", (.slice (.leaf .double)))]⟩,
  -- 280: XVType, 2442-2445
  ⟨"XVType", [("X", (.leaf .double)), ("Value", (.leaf .float))]⟩,
  -- 281: ProgramDiagnosticDataType, 2449-2460
  ⟨"ProgramDiagnosticDataType", [("CreateSessionID", (.leaf .nodeID)), ("CreateClientName", (.leaf .string)), ("InvocationCreationTime", (.leaf .dateTime)), ("LastTransitionTime", (.leaf .dateTime)), ("LastMethodCall", (.leaf .string)), ("LastMethodSessionID", (.leaf .nodeID)), ("LastMethodInputArguments", (.slice (.struct 70))), ("LastMethodOutputArguments", (.slice (.struct 70))), ("LastMethodCallTime", (.leaf .dateTime)), ("LastMethodReturnStatus", (.struct 271))]⟩,
  -- 282: ProgramDiagnostic2DataType, 2464-2477
  ⟨"ProgramDiagnostic2DataType", [("CreateSessionID", (.leaf .nodeID)), ("CreateClientName", (.leaf .string)), ("InvocationCreationTime", (.leaf .dateTime)), ("LastTransitionTime", (.leaf .dateTime)), ("LastMethodCall", (.leaf .string)), ("LastMethodSessionID", (.leaf .nodeID)), ("LastMethodInputArguments", (.slice (.struct 70))), ("LastMethodOutputArguments", (.slice (.struct 70))), ("LastMethodInputValues", (.slice .variant)), ("LastMethodOutputValues", (.slice .variant)), ("LastMethodCallTime", (.leaf .dateTime)), ("LastMethodReturnStatus", (.struct 271))]⟩,
  -- 283: Annotation, 2481-2485
  ⟨"Annotation", [("Message", (.leaf .string)), ("UserName", (.leaf .string)), ("AnnotationTime", (.leaf .dateTime))]⟩]

/-- ua/structs.generated.go -/
def structs : List Struct := structs0 ++ structs1 ++ structs2 ++ structs3 ++ structs4 ++ structs5 ++ structs6 ++ structs7

/-- The calls of `RegisterBinaryEncodingID` in `init`, ua/structs.generated.go:2490-2773: the structure and
the number of its id in namespace 0. -/
def registered : List (Nat × Nat) := [
  (0, 14846), (1, 17537), (2, 17549), (3, 15671), (4, 18815), (5, 18816), (6, 18817), (7, 18818), (8, 18819), (9, 18820), (10, 18821), (11, 18822),
  (12, 18823), (13, 15736), (14, 23507), (15, 12680), (16, 17863), (17, 15676), (18, 125), (19, 126), (20, 127), (21, 15421), (22, 15422), (23, 124),
  (24, 14839), (25, 14847), (26, 15677), (27, 15678), (28, 14323), (29, 15679), (30, 15681), (31, 15682), (32, 15683), (33, 15688), (34, 15689), (35, 21150),
  (36, 15691), (37, 15693), (38, 15694), (39, 15695), (40, 21151), (41, 21152), (42, 21153), (43, 15701), (44, 15702), (45, 15703), (46, 15705), (47, 15706),
  (48, 15707), (49, 15712), (50, 14848), (51, 15713), (52, 21154), (53, 15715), (54, 15717), (55, 15718), (56, 15719), (57, 15724), (58, 15725), (59, 17468),
  (60, 21155), (61, 15479), (62, 15727), (63, 15729), (64, 15733), (65, 23499), (66, 128), (67, 14844), (68, 122), (69, 123), (70, 298), (71, 8251),
  (72, 14845), (73, 12765), (74, 12766), (75, 8917), (76, 310), (77, 391), (78, 394), (79, 397), (80, 15903), (81, 21001), (82, 422), (83, 425),
  (84, 12207), (85, 12208), (86, 12209), (87, 306), (88, 314), (89, 428), (90, 431), (91, 434), (92, 437), (93, 440), (94, 12900), (95, 12901),
  (96, 12211), (97, 12212), (98, 443), (99, 446), (100, 449), (101, 452), (102, 455), (103, 346), (104, 458), (105, 461), (106, 464), (107, 318),
  (108, 321), (109, 324), (110, 327), (111, 940), (112, 467), (113, 470), (114, 473), (115, 476), (116, 479), (117, 482), (118, 351), (119, 354),
  (120, 357), (121, 360), (122, 363), (123, 366), (124, 369), (125, 372), (126, 375), (127, 17610), (128, 17611), (129, 378), (130, 485), (131, 488),
  (132, 491), (133, 381), (134, 494), (135, 497), (136, 384), (137, 500), (138, 503), (139, 387), (140, 506), (141, 509), (142, 513), (143, 516),
  (144, 520), (145, 524), (146, 527), (147, 530), (148, 533), (149, 536), (150, 539), (151, 542), (152, 545), (153, 548), (154, 551), (155, 554),
  (156, 557), (157, 560), (158, 563), (159, 566), (160, 569), (161, 333), (162, 572), (163, 575), (164, 579), (165, 582), (166, 585), (167, 588),
  (168, 591), (169, 594), (170, 597), (171, 600), (172, 603), (173, 606), (174, 609), (175, 612), (176, 615), (177, 618), (178, 621), (179, 624),
  (180, 628), (181, 631), (182, 634), (183, 637), (184, 640), (185, 643), (186, 646), (187, 649), (188, 652), (189, 655), (190, 23500), (191, 658),
  (192, 11226), (193, 11227), (194, 661), (195, 664), (196, 667), (197, 670), (198, 673), (199, 676), (200, 679), (201, 682), (202, 11300), (203, 685),
  (204, 688), (205, 691), (206, 694), (207, 697), (208, 700), (209, 703), (210, 706), (211, 709), (212, 712), (213, 715), (214, 721), (215, 724),
  (216, 727), (217, 950), (218, 730), (219, 733), (220, 736), (221, 739), (222, 742), (223, 745), (224, 748), (225, 751), (226, 754), (227, 757),
  (228, 760), (229, 763), (230, 766), (231, 769), (232, 772), (233, 775), (234, 778), (235, 781), (236, 784), (237, 787), (238, 790), (239, 793),
  (240, 796), (241, 799), (242, 802), (243, 805), (244, 947), (245, 811), (246, 808), (247, 916), (248, 919), (249, 922), (250, 820), (251, 823),
  (252, 826), (253, 829), (254, 832), (255, 835), (256, 838), (257, 841), (258, 844), (259, 847), (260, 850), (261, 340), (262, 855), (263, 11957),
  (264, 11958), (265, 858), (266, 861), (267, 864), (268, 867), (269, 870), (270, 873), (271, 301), (272, 876), (273, 879), (274, 899), (275, 886),
  (276, 889), (277, 12181), (278, 12182), (279, 12089), (280, 12090), (281, 896), (282, 15397), (283, 893)]

/-- The type the codec sees (getEncoder, ua/binary_encoder.go:94-163; getDecoder,
ua/binary_decoder.go:67-135): enumerations are of kind `int32`. -/
def F.ty (tys : Nat → List Ty) : F → Ty
  | .leaf t => .leaf t
  | .variant => .variant
  | .dataValue => .dataValue
  | .ext => .ext
  | .diag => .diag
  | .enum _ => .leaf .int32
  | .struct i => .struct (tys i)
  | .slice f => .slice (f.ty tys)

def fieldsOf (i : Nat) : List (String × F) :=
  match structs[i]? with
  | some s => s.fields
  | none => []

/-- The fields of structure `i`, looking at most `n` structures deep. -/
def fieldTys : Nat → Nat → List Ty
  | 0, _ => []
  | n + 1, i => (fieldsOf i).map (fun f => f.2.ty (fieldTys n))

/-- No structure of the library is nested deeper (`Structs.deep_enough` in Props/Structs.lean). -/
abbrev nesting : Nat := 8

def idOf (i : Nat) : Option Nat := (registered.find? (fun r => r.1 == i)).map (·.2)

def ofId (id : Nat) : Option Nat := (registered.find? (fun r => r.2 == id)).map (·.1)

/-- `FindTypeForBinaryEncodingID` for ids of namespace 0, where alone the library registers. -/
def ofNode : Option NodeID → Option Nat
  | some (.numeric 0 id) => ofId id.toNat
  | _ => none

/-- What `init` leaves in the registry (`register`, Model/Registry.lean; the calls do not panic,
`Structs.init_registers`). -/
def reg : Reg where
  fieldsOf := fieldTys nesting
  idOf := fun i => (idOf i).map (fun n => some (.numeric 0 (BitVec.ofNat 32 n)))
  tyOf := ofNode

end Opcua.Structs
