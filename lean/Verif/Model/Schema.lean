/-!
# The schema of the OPC Foundation

Made by tools/gen_structs.py from schema/Opc.Ua.Types.bsd (structures with a base type and all
enumerations; the others are the built-in types of Model/Scalars.lean and Model/Value.lean) and from
server/nodeset_1_04.xml, the address space the server starts with. Nothing here is taken from the Go
code: these tables are what it is compared with.
-/

namespace Opcua.Schema

/-- `opc:StructuredType`: its fields with name, type and LengthField. -/
structure StructuredType where
  name : String
  fields : List (String × String × Option String)

/-- `opc:EnumeratedType` with LengthInBits. -/
structure EnumeratedType where
  name : String
  bits : Nat
  values : List (String × Nat)

def enumerations0 : List EnumeratedType := [
  ⟨"NodeIdType", 6, [("TwoByte", 0), ("FourByte", 1), ("Numeric", 2), ("String", 3), ("Guid", 4), ("ByteString", 5)]⟩,
  ⟨"NamingRuleType", 32, [("Mandatory", 1), ("Optional", 2), ("Constraint", 3)]⟩,
  ⟨"OpenFileMode", 32, [("Read", 1), ("Write", 2), ("EraseExisting", 4), ("Append", 8)]⟩,
  ⟨"IdentityCriteriaType", 32, [("UserName", 1), ("Thumbprint", 2), ("Role", 3), ("GroupId", 4), ("Anonymous", 5), ("AuthenticatedUser", 6)]⟩,
  ⟨"TrustListMasks", 32, [("None", 0), ("TrustedCertificates", 1), ("TrustedCrls", 2), ("IssuerCertificates", 4), ("IssuerCrls", 8), ("All", 15)]⟩,
  ⟨"PubSubState", 32, [("Disabled", 0), ("Paused", 1), ("Operational", 2), ("Error", 3)]⟩,
  ⟨"DataSetFieldFlags", 16, [("None", 0), ("PromotedField", 1)]⟩,
  ⟨"DataSetFieldContentMask", 32, [("None", 0), ("StatusCode", 1), ("SourceTimestamp", 2), ("ServerTimestamp", 4), ("SourcePicoSeconds", 8), ("ServerPicoSeconds", 16), ("RawData", 32)]⟩,
  ⟨"OverrideValueHandling", 32, [("Disabled", 0), ("LastUsableValue", 1), ("OverrideValue", 2)]⟩,
  ⟨"DataSetOrderingType", 32, [("Undefined", 0), ("AscendingWriterId", 1), ("AscendingWriterIdSingle", 2)]⟩,
  ⟨"UadpNetworkMessageContentMask", 32, [("None", 0), ("PublisherId", 1), ("GroupHeader", 2), ("WriterGroupId", 4), ("GroupVersion", 8), ("NetworkMessageNumber", 16), ("SequenceNumber", 32), ("PayloadHeader", 64), ("Timestamp", 128), ("PicoSeconds", 256), ("DataSetClassId", 512), ("PromotedFields", 1024)]⟩,
  ⟨"UadpDataSetMessageContentMask", 32, [("None", 0), ("Timestamp", 1), ("PicoSeconds", 2), ("Status", 4), ("MajorVersion", 8), ("MinorVersion", 16), ("SequenceNumber", 32)]⟩,
  ⟨"JsonNetworkMessageContentMask", 32, [("None", 0), ("NetworkMessageHeader", 1), ("DataSetMessageHeader", 2), ("SingleDataSetMessage", 4), ("PublisherId", 8), ("DataSetClassId", 16), ("ReplyTo", 32)]⟩,
  ⟨"JsonDataSetMessageContentMask", 32, [("None", 0), ("DataSetWriterId", 1), ("MetaDataVersion", 2), ("SequenceNumber", 4), ("Timestamp", 8), ("Status", 16)]⟩,
  ⟨"BrokerTransportQualityOfService", 32, [("NotSpecified", 0), ("BestEffort", 1), ("AtLeastOnce", 2), ("AtMostOnce", 3), ("ExactlyOnce", 4)]⟩,
  ⟨"DiagnosticsLevel", 32, [("Basic", 0), ("Advanced", 1), ("Info", 2), ("Log", 3), ("Debug", 4)]⟩]

def enumerations1 : List EnumeratedType := [
  ⟨"PubSubDiagnosticsCounterClassification", 32, [("Information", 0), ("Error", 1)]⟩,
  ⟨"IdType", 32, [("Numeric", 0), ("String", 1), ("Guid", 2), ("Opaque", 3)]⟩,
  ⟨"NodeClass", 32, [("Unspecified", 0), ("Object", 1), ("Variable", 2), ("Method", 4), ("ObjectType", 8), ("VariableType", 16), ("ReferenceType", 32), ("DataType", 64), ("View", 128)]⟩,
  ⟨"PermissionType", 32, [("None", 0), ("Browse", 1), ("ReadRolePermissions", 2), ("WriteAttribute", 4), ("WriteRolePermissions", 8), ("WriteHistorizing", 16), ("Read", 32), ("Write", 64), ("ReadHistory", 128), ("InsertHistory", 256), ("ModifyHistory", 512), ("DeleteHistory", 1024), ("ReceiveEvents", 2048), ("Call", 4096), ("AddReference", 8192), ("RemoveReference", 16384), ("DeleteNode", 32768), ("AddNode", 65536)]⟩,
  ⟨"AccessLevelType", 8, [("None", 0), ("CurrentRead", 1), ("CurrentWrite", 2), ("HistoryRead", 4), ("HistoryWrite", 8), ("SemanticChange", 16), ("StatusWrite", 32), ("TimestampWrite", 64)]⟩,
  ⟨"AccessLevelExType", 32, [("None", 0), ("CurrentRead", 1), ("CurrentWrite", 2), ("HistoryRead", 4), ("HistoryWrite", 8), ("SemanticChange", 16), ("StatusWrite", 32), ("TimestampWrite", 64), ("NonatomicRead", 256), ("NonatomicWrite", 512), ("WriteFullArrayOnly", 1024)]⟩,
  ⟨"EventNotifierType", 8, [("None", 0), ("SubscribeToEvents", 1), ("HistoryRead", 4), ("HistoryWrite", 8)]⟩,
  ⟨"AccessRestrictionType", 32, [("None", 0), ("SigningRequired", 1), ("EncryptionRequired", 2), ("SessionRequired", 4)]⟩,
  ⟨"StructureType", 32, [("Structure", 0), ("StructureWithOptionalFields", 1), ("Union", 2)]⟩,
  ⟨"ApplicationType", 32, [("Server", 0), ("Client", 1), ("ClientAndServer", 2), ("DiscoveryServer", 3)]⟩,
  ⟨"MessageSecurityMode", 32, [("Invalid", 0), ("None", 1), ("Sign", 2), ("SignAndEncrypt", 3)]⟩,
  ⟨"UserTokenType", 32, [("Anonymous", 0), ("UserName", 1), ("Certificate", 2), ("IssuedToken", 3)]⟩,
  ⟨"SecurityTokenRequestType", 32, [("Issue", 0), ("Renew", 1)]⟩,
  ⟨"NodeAttributesMask", 32, [("None", 0), ("AccessLevel", 1), ("ArrayDimensions", 2), ("BrowseName", 4), ("ContainsNoLoops", 8), ("DataType", 16), ("Description", 32), ("DisplayName", 64), ("EventNotifier", 128), ("Executable", 256), ("Historizing", 512), ("InverseName", 1024), ("IsAbstract", 2048), ("MinimumSamplingInterval", 4096), ("NodeClass", 8192), ("NodeId", 16384), ("Symmetric", 32768), ("UserAccessLevel", 65536), ("UserExecutable", 131072), ("UserWriteMask", 262144), ("ValueRank", 524288), ("WriteMask", 1048576), ("Value", 2097152), ("DataTypeDefinition", 4194304), ("RolePermissions", 8388608), ("AccessRestrictions", 16777216), ("All", 33554431), ("BaseNode", 26501220), ("Object", 26501348), ("ObjectType", 26503268), ("Variable", 26571383), ("VariableType", 28600438), ("Method", 26632548), ("ReferenceType", 26537060), ("View", 26501356)]⟩,
  ⟨"AttributeWriteMask", 32, [("None", 0), ("AccessLevel", 1), ("ArrayDimensions", 2), ("BrowseName", 4), ("ContainsNoLoops", 8), ("DataType", 16), ("Description", 32), ("DisplayName", 64), ("EventNotifier", 128), ("Executable", 256), ("Historizing", 512), ("InverseName", 1024), ("IsAbstract", 2048), ("MinimumSamplingInterval", 4096), ("NodeClass", 8192), ("NodeId", 16384), ("Symmetric", 32768), ("UserAccessLevel", 65536), ("UserExecutable", 131072), ("UserWriteMask", 262144), ("ValueRank", 524288), ("WriteMask", 1048576), ("ValueForVariableType", 2097152), ("DataTypeDefinition", 4194304), ("RolePermissions", 8388608), ("AccessRestrictions", 16777216), ("AccessLevelEx", 33554432)]⟩,
  ⟨"BrowseDirection", 32, [("Forward", 0), ("Inverse", 1), ("Both", 2), ("Invalid", 3)]⟩]

def enumerations2 : List EnumeratedType := [
  ⟨"BrowseResultMask", 32, [("None", 0), ("ReferenceTypeId", 1), ("IsForward", 2), ("NodeClass", 4), ("BrowseName", 8), ("DisplayName", 16), ("TypeDefinition", 32), ("All", 63), ("ReferenceTypeInfo", 3), ("TargetInfo", 60)]⟩,
  ⟨"FilterOperator", 32, [("Equals", 0), ("IsNull", 1), ("GreaterThan", 2), ("LessThan", 3), ("GreaterThanOrEqual", 4), ("LessThanOrEqual", 5), ("Like", 6), ("Not", 7), ("Between", 8), ("InList", 9), ("And", 10), ("Or", 11), ("Cast", 12), ("InView", 13), ("OfType", 14), ("RelatedTo", 15), ("BitwiseAnd", 16), ("BitwiseOr", 17)]⟩,
  ⟨"TimestampsToReturn", 32, [("Source", 0), ("Server", 1), ("Both", 2), ("Neither", 3), ("Invalid", 4)]⟩,
  ⟨"HistoryUpdateType", 32, [("Insert", 1), ("Replace", 2), ("Update", 3), ("Delete", 4)]⟩,
  ⟨"PerformUpdateType", 32, [("Insert", 1), ("Replace", 2), ("Update", 3), ("Remove", 4)]⟩,
  ⟨"MonitoringMode", 32, [("Disabled", 0), ("Sampling", 1), ("Reporting", 2)]⟩,
  ⟨"DataChangeTrigger", 32, [("Status", 0), ("StatusValue", 1), ("StatusValueTimestamp", 2)]⟩,
  ⟨"DeadbandType", 32, [("None", 0), ("Absolute", 1), ("Percent", 2)]⟩,
  ⟨"RedundancySupport", 32, [("None", 0), ("Cold", 1), ("Warm", 2), ("Hot", 3), ("Transparent", 4), ("HotAndMirrored", 5)]⟩,
  ⟨"ServerState", 32, [("Running", 0), ("Failed", 1), ("NoConfiguration", 2), ("Suspended", 3), ("Shutdown", 4), ("Test", 5), ("CommunicationFault", 6), ("Unknown", 7)]⟩,
  ⟨"ModelChangeStructureVerbMask", 32, [("NodeAdded", 1), ("NodeDeleted", 2), ("ReferenceAdded", 4), ("ReferenceDeleted", 8), ("DataTypeChanged", 16)]⟩,
  ⟨"AxisScaleEnumeration", 32, [("Linear", 0), ("Log", 1), ("Ln", 2)]⟩,
  ⟨"ExceptionDeviationFormat", 32, [("AbsoluteValue", 0), ("PercentOfValue", 1), ("PercentOfRange", 2), ("PercentOfEURange", 3), ("Unknown", 4)]⟩]

def enumerations : List EnumeratedType := enumerations0 ++ enumerations1 ++ enumerations2

def types0 : List StructuredType := [
  ⟨"KeyValuePair", [("Key", "ua:QualifiedName", none), ("Value", "ua:Variant", none)]⟩,
  ⟨"AdditionalParametersType", [("NoOfParameters", "opc:Int32", none), ("Parameters", "tns:KeyValuePair", some "NoOfParameters")]⟩,
  ⟨"EphemeralKeyType", [("PublicKey", "opc:ByteString", none), ("Signature", "opc:ByteString", none)]⟩,
  ⟨"EndpointType", [("EndpointUrl", "opc:String", none), ("SecurityMode", "tns:MessageSecurityMode", none), ("SecurityPolicyUri", "opc:String", none), ("TransportProfileUri", "opc:String", none)]⟩,
  ⟨"RationalNumber", [("Numerator", "opc:Int32", none), ("Denominator", "opc:UInt32", none)]⟩,
  ⟨"Vector", []⟩,
  ⟨"ThreeDVector", [("X", "opc:Double", none), ("Y", "opc:Double", none), ("Z", "opc:Double", none)]⟩,
  ⟨"CartesianCoordinates", []⟩,
  ⟨"ThreeDCartesianCoordinates", [("X", "opc:Double", none), ("Y", "opc:Double", none), ("Z", "opc:Double", none)]⟩,
  ⟨"Orientation", []⟩,
  ⟨"ThreeDOrientation", [("A", "opc:Double", none), ("B", "opc:Double", none), ("C", "opc:Double", none)]⟩,
  ⟨"Frame", []⟩,
  ⟨"ThreeDFrame", [("CartesianCoordinates", "tns:ThreeDCartesianCoordinates", none), ("Orientation", "tns:ThreeDOrientation", none)]⟩,
  ⟨"IdentityMappingRuleType", [("CriteriaType", "tns:IdentityCriteriaType", none), ("Criteria", "opc:String", none)]⟩,
  ⟨"CurrencyUnitType", [("NumericCode", "opc:Int16", none), ("Exponent", "opc:SByte", none), ("AlphabeticCode", "opc:String", none), ("Currency", "ua:LocalizedText", none)]⟩,
  ⟨"TrustListDataType", [("SpecifiedLists", "opc:UInt32", none), ("NoOfTrustedCertificates", "opc:Int32", none), ("TrustedCertificates", "opc:ByteString", some "NoOfTrustedCertificates"), ("NoOfTrustedCrls", "opc:Int32", none), ("TrustedCrls", "opc:ByteString", some "NoOfTrustedCrls"), ("NoOfIssuerCertificates", "opc:Int32", none), ("IssuerCertificates", "opc:ByteString", some "NoOfIssuerCertificates"), ("NoOfIssuerCrls", "opc:Int32", none), ("IssuerCrls", "opc:ByteString", some "NoOfIssuerCrls")]⟩,
  ⟨"DecimalDataType", [("Scale", "opc:Int16", none), ("Value", "opc:ByteString", none)]⟩,
  ⟨"DataTypeSchemaHeader", [("NoOfNamespaces", "opc:Int32", none), ("Namespaces", "opc:String", some "NoOfNamespaces"), ("NoOfStructureDataTypes", "opc:Int32", none), ("StructureDataTypes", "tns:StructureDescription", some "NoOfStructureDataTypes"), ("NoOfEnumDataTypes", "opc:Int32", none), ("EnumDataTypes", "tns:EnumDescription", some "NoOfEnumDataTypes"), ("NoOfSimpleDataTypes", "opc:Int32", none), ("SimpleDataTypes", "tns:SimpleTypeDescription", some "NoOfSimpleDataTypes")]⟩,
  ⟨"DataTypeDescription", [("DataTypeId", "ua:NodeId", none), ("Name", "ua:QualifiedName", none)]⟩,
  ⟨"StructureDescription", [("DataTypeId", "ua:NodeId", none), ("Name", "ua:QualifiedName", none), ("StructureDefinition", "tns:StructureDefinition", none)]⟩,
  ⟨"EnumDescription", [("DataTypeId", "ua:NodeId", none), ("Name", "ua:QualifiedName", none), ("EnumDefinition", "tns:EnumDefinition", none), ("BuiltInType", "opc:Byte", none)]⟩,
  ⟨"SimpleTypeDescription", [("DataTypeId", "ua:NodeId", none), ("Name", "ua:QualifiedName", none), ("BaseDataType", "ua:NodeId", none), ("BuiltInType", "opc:Byte", none)]⟩,
  ⟨"UABinaryFileDataType", [("NoOfNamespaces", "opc:Int32", none), ("Namespaces", "opc:String", some "NoOfNamespaces"), ("NoOfStructureDataTypes", "opc:Int32", none), ("StructureDataTypes", "tns:StructureDescription", some "NoOfStructureDataTypes"), ("NoOfEnumDataTypes", "opc:Int32", none), ("EnumDataTypes", "tns:EnumDescription", some "NoOfEnumDataTypes"), ("NoOfSimpleDataTypes", "opc:Int32", none), ("SimpleDataTypes", "tns:SimpleTypeDescription", some "NoOfSimpleDataTypes"), ("SchemaLocation", "opc:String", none), ("NoOfFileHeader", "opc:Int32", none), ("FileHeader", "tns:KeyValuePair", some "NoOfFileHeader"), ("Body", "ua:Variant", none)]⟩,
  ⟨"DataSetMetaDataType", [("NoOfNamespaces", "opc:Int32", none), ("Namespaces", "opc:String", some "NoOfNamespaces"), ("NoOfStructureDataTypes", "opc:Int32", none), ("StructureDataTypes", "tns:StructureDescription", some "NoOfStructureDataTypes"), ("NoOfEnumDataTypes", "opc:Int32", none), ("EnumDataTypes", "tns:EnumDescription", some "NoOfEnumDataTypes"), ("NoOfSimpleDataTypes", "opc:Int32", none), ("SimpleDataTypes", "tns:SimpleTypeDescription", some "NoOfSimpleDataTypes"), ("Name", "opc:String", none), ("Description", "ua:LocalizedText", none), ("NoOfFields", "opc:Int32", none), ("Fields", "tns:FieldMetaData", some "NoOfFields"), ("DataSetClassId", "opc:Guid", none), ("ConfigurationVersion", "tns:ConfigurationVersionDataType", none)]⟩,
  ⟨"FieldMetaData", [("Name", "opc:String", none), ("Description", "ua:LocalizedText", none), ("FieldFlags", "tns:DataSetFieldFlags", none), ("BuiltInType", "opc:Byte", none), ("DataType", "ua:NodeId", none), ("ValueRank", "opc:Int32", none), ("NoOfArrayDimensions", "opc:Int32", none), ("ArrayDimensions", "opc:UInt32", some "NoOfArrayDimensions"), ("MaxStringLength", "opc:UInt32", none), ("DataSetFieldId", "opc:Guid", none), ("NoOfProperties", "opc:Int32", none), ("Properties", "tns:KeyValuePair", some "NoOfProperties")]⟩,
  ⟨"ConfigurationVersionDataType", [("MajorVersion", "opc:UInt32", none), ("MinorVersion", "opc:UInt32", none)]⟩,
  ⟨"PublishedDataSetDataType", [("Name", "opc:String", none), ("NoOfDataSetFolder", "opc:Int32", none), ("DataSetFolder", "opc:String", some "NoOfDataSetFolder"), ("DataSetMetaData", "tns:DataSetMetaDataType", none), ("NoOfExtensionFields", "opc:Int32", none), ("ExtensionFields", "tns:KeyValuePair", some "NoOfExtensionFields"), ("DataSetSource", "ua:ExtensionObject", none)]⟩,
  ⟨"PublishedDataSetSourceDataType", []⟩,
  ⟨"PublishedVariableDataType", [("PublishedVariable", "ua:NodeId", none), ("AttributeId", "opc:UInt32", none), ("SamplingIntervalHint", "opc:Double", none), ("DeadbandType", "opc:UInt32", none), ("DeadbandValue", "opc:Double", none), ("IndexRange", "opc:String", none), ("SubstituteValue", "ua:Variant", none), ("NoOfMetaDataProperties", "opc:Int32", none), ("MetaDataProperties", "ua:QualifiedName", some "NoOfMetaDataProperties")]⟩,
  ⟨"PublishedDataItemsDataType", [("NoOfPublishedData", "opc:Int32", none), ("PublishedData", "tns:PublishedVariableDataType", some "NoOfPublishedData")]⟩,
  ⟨"PublishedEventsDataType", [("EventNotifier", "ua:NodeId", none), ("NoOfSelectedFields", "opc:Int32", none), ("SelectedFields", "tns:SimpleAttributeOperand", some "NoOfSelectedFields"), ("Filter", "tns:ContentFilter", none)]⟩,
  ⟨"DataSetWriterDataType", [("Name", "opc:String", none), ("Enabled", "opc:Boolean", none), ("DataSetWriterId", "opc:UInt16", none), ("DataSetFieldContentMask", "tns:DataSetFieldContentMask", none), ("KeyFrameCount", "opc:UInt32", none), ("DataSetName", "opc:String", none), ("NoOfDataSetWriterProperties", "opc:Int32", none), ("DataSetWriterProperties", "tns:KeyValuePair", some "NoOfDataSetWriterProperties"), ("TransportSettings", "ua:ExtensionObject", none), ("MessageSettings", "ua:ExtensionObject", none)]⟩,
  ⟨"DataSetWriterTransportDataType", []⟩,
  ⟨"DataSetWriterMessageDataType", []⟩,
  ⟨"PubSubGroupDataType", [("Name", "opc:String", none), ("Enabled", "opc:Boolean", none), ("SecurityMode", "tns:MessageSecurityMode", none), ("SecurityGroupId", "opc:String", none), ("NoOfSecurityKeyServices", "opc:Int32", none), ("SecurityKeyServices", "tns:EndpointDescription", some "NoOfSecurityKeyServices"), ("MaxNetworkMessageSize", "opc:UInt32", none), ("NoOfGroupProperties", "opc:Int32", none), ("GroupProperties", "tns:KeyValuePair", some "NoOfGroupProperties")]⟩,
  ⟨"WriterGroupDataType", [("Name", "opc:String", none), ("Enabled", "opc:Boolean", none), ("SecurityMode", "tns:MessageSecurityMode", none), ("SecurityGroupId", "opc:String", none), ("NoOfSecurityKeyServices", "opc:Int32", none), ("SecurityKeyServices", "tns:EndpointDescription", some "NoOfSecurityKeyServices"), ("MaxNetworkMessageSize", "opc:UInt32", none), ("NoOfGroupProperties", "opc:Int32", none), ("GroupProperties", "tns:KeyValuePair", some "NoOfGroupProperties"), ("WriterGroupId", "opc:UInt16", none), ("PublishingInterval", "opc:Double", none), ("KeepAliveTime", "opc:Double", none), ("Priority", "opc:Byte", none), ("NoOfLocaleIds", "opc:Int32", none), ("LocaleIds", "opc:String", some "NoOfLocaleIds"), ("HeaderLayoutUri", "opc:String", none), ("TransportSettings", "ua:ExtensionObject", none), ("MessageSettings", "ua:ExtensionObject", none), ("NoOfDataSetWriters", "opc:Int32", none), ("DataSetWriters", "tns:DataSetWriterDataType", some "NoOfDataSetWriters")]⟩]

def types1 : List StructuredType := [
  ⟨"WriterGroupTransportDataType", []⟩,
  ⟨"WriterGroupMessageDataType", []⟩,
  ⟨"PubSubConnectionDataType", [("Name", "opc:String", none), ("Enabled", "opc:Boolean", none), ("PublisherId", "ua:Variant", none), ("TransportProfileUri", "opc:String", none), ("Address", "ua:ExtensionObject", none), ("NoOfConnectionProperties", "opc:Int32", none), ("ConnectionProperties", "tns:KeyValuePair", some "NoOfConnectionProperties"), ("TransportSettings", "ua:ExtensionObject", none), ("NoOfWriterGroups", "opc:Int32", none), ("WriterGroups", "tns:WriterGroupDataType", some "NoOfWriterGroups"), ("NoOfReaderGroups", "opc:Int32", none), ("ReaderGroups", "tns:ReaderGroupDataType", some "NoOfReaderGroups")]⟩,
  ⟨"ConnectionTransportDataType", []⟩,
  ⟨"NetworkAddressDataType", [("NetworkInterface", "opc:String", none)]⟩,
  ⟨"NetworkAddressUrlDataType", [("NetworkInterface", "opc:String", none), ("Url", "opc:String", none)]⟩,
  ⟨"ReaderGroupDataType", [("Name", "opc:String", none), ("Enabled", "opc:Boolean", none), ("SecurityMode", "tns:MessageSecurityMode", none), ("SecurityGroupId", "opc:String", none), ("NoOfSecurityKeyServices", "opc:Int32", none), ("SecurityKeyServices", "tns:EndpointDescription", some "NoOfSecurityKeyServices"), ("MaxNetworkMessageSize", "opc:UInt32", none), ("NoOfGroupProperties", "opc:Int32", none), ("GroupProperties", "tns:KeyValuePair", some "NoOfGroupProperties"), ("TransportSettings", "ua:ExtensionObject", none), ("MessageSettings", "ua:ExtensionObject", none), ("NoOfDataSetReaders", "opc:Int32", none), ("DataSetReaders", "tns:DataSetReaderDataType", some "NoOfDataSetReaders")]⟩,
  ⟨"ReaderGroupTransportDataType", []⟩,
  ⟨"ReaderGroupMessageDataType", []⟩,
  ⟨"DataSetReaderDataType", [("Name", "opc:String", none), ("Enabled", "opc:Boolean", none), ("PublisherId", "ua:Variant", none), ("WriterGroupId", "opc:UInt16", none), ("DataSetWriterId", "opc:UInt16", none), ("DataSetMetaData", "tns:DataSetMetaDataType", none), ("DataSetFieldContentMask", "tns:DataSetFieldContentMask", none), ("MessageReceiveTimeout", "opc:Double", none), ("KeyFrameCount", "opc:UInt32", none), ("HeaderLayoutUri", "opc:String", none), ("SecurityMode", "tns:MessageSecurityMode", none), ("SecurityGroupId", "opc:String", none), ("NoOfSecurityKeyServices", "opc:Int32", none), ("SecurityKeyServices", "tns:EndpointDescription", some "NoOfSecurityKeyServices"), ("NoOfDataSetReaderProperties", "opc:Int32", none), ("DataSetReaderProperties", "tns:KeyValuePair", some "NoOfDataSetReaderProperties"), ("TransportSettings", "ua:ExtensionObject", none), ("MessageSettings", "ua:ExtensionObject", none), ("SubscribedDataSet", "ua:ExtensionObject", none)]⟩,
  ⟨"DataSetReaderTransportDataType", []⟩,
  ⟨"DataSetReaderMessageDataType", []⟩,
  ⟨"SubscribedDataSetDataType", []⟩,
  ⟨"TargetVariablesDataType", [("NoOfTargetVariables", "opc:Int32", none), ("TargetVariables", "tns:FieldTargetDataType", some "NoOfTargetVariables")]⟩,
  ⟨"FieldTargetDataType", [("DataSetFieldId", "opc:Guid", none), ("ReceiverIndexRange", "opc:String", none), ("TargetNodeId", "ua:NodeId", none), ("AttributeId", "opc:UInt32", none), ("WriteIndexRange", "opc:String", none), ("OverrideValueHandling", "tns:OverrideValueHandling", none), ("OverrideValue", "ua:Variant", none)]⟩,
  ⟨"SubscribedDataSetMirrorDataType", [("ParentNodeName", "opc:String", none), ("NoOfRolePermissions", "opc:Int32", none), ("RolePermissions", "tns:RolePermissionType", some "NoOfRolePermissions")]⟩,
  ⟨"PubSubConfigurationDataType", [("NoOfPublishedDataSets", "opc:Int32", none), ("PublishedDataSets", "tns:PublishedDataSetDataType", some "NoOfPublishedDataSets"), ("NoOfConnections", "opc:Int32", none), ("Connections", "tns:PubSubConnectionDataType", some "NoOfConnections"), ("Enabled", "opc:Boolean", none)]⟩,
  ⟨"UadpWriterGroupMessageDataType", [("GroupVersion", "opc:UInt32", none), ("DataSetOrdering", "tns:DataSetOrderingType", none), ("NetworkMessageContentMask", "tns:UadpNetworkMessageContentMask", none), ("SamplingOffset", "opc:Double", none), ("NoOfPublishingOffset", "opc:Int32", none), ("PublishingOffset", "opc:Double", some "NoOfPublishingOffset")]⟩,
  ⟨"UadpDataSetWriterMessageDataType", [("DataSetMessageContentMask", "tns:UadpDataSetMessageContentMask", none), ("ConfiguredSize", "opc:UInt16", none), ("NetworkMessageNumber", "opc:UInt16", none), ("DataSetOffset", "opc:UInt16", none)]⟩,
  ⟨"UadpDataSetReaderMessageDataType", [("GroupVersion", "opc:UInt32", none), ("NetworkMessageNumber", "opc:UInt16", none), ("DataSetOffset", "opc:UInt16", none), ("DataSetClassId", "opc:Guid", none), ("NetworkMessageContentMask", "tns:UadpNetworkMessageContentMask", none), ("DataSetMessageContentMask", "tns:UadpDataSetMessageContentMask", none), ("PublishingInterval", "opc:Double", none), ("ReceiveOffset", "opc:Double", none), ("ProcessingOffset", "opc:Double", none)]⟩,
  ⟨"JsonWriterGroupMessageDataType", [("NetworkMessageContentMask", "tns:JsonNetworkMessageContentMask", none)]⟩,
  ⟨"JsonDataSetWriterMessageDataType", [("DataSetMessageContentMask", "tns:JsonDataSetMessageContentMask", none)]⟩,
  ⟨"JsonDataSetReaderMessageDataType", [("NetworkMessageContentMask", "tns:JsonNetworkMessageContentMask", none), ("DataSetMessageContentMask", "tns:JsonDataSetMessageContentMask", none)]⟩,
  ⟨"DatagramConnectionTransportDataType", [("DiscoveryAddress", "ua:ExtensionObject", none)]⟩,
  ⟨"DatagramWriterGroupTransportDataType", [("MessageRepeatCount", "opc:Byte", none), ("MessageRepeatDelay", "opc:Double", none)]⟩,
  ⟨"BrokerConnectionTransportDataType", [("ResourceUri", "opc:String", none), ("AuthenticationProfileUri", "opc:String", none)]⟩,
  ⟨"BrokerWriterGroupTransportDataType", [("QueueName", "opc:String", none), ("ResourceUri", "opc:String", none), ("AuthenticationProfileUri", "opc:String", none), ("RequestedDeliveryGuarantee", "tns:BrokerTransportQualityOfService", none)]⟩,
  ⟨"BrokerDataSetWriterTransportDataType", [("QueueName", "opc:String", none), ("ResourceUri", "opc:String", none), ("AuthenticationProfileUri", "opc:String", none), ("RequestedDeliveryGuarantee", "tns:BrokerTransportQualityOfService", none), ("MetaDataQueueName", "opc:String", none), ("MetaDataUpdateTime", "opc:Double", none)]⟩,
  ⟨"BrokerDataSetReaderTransportDataType", [("QueueName", "opc:String", none), ("ResourceUri", "opc:String", none), ("AuthenticationProfileUri", "opc:String", none), ("RequestedDeliveryGuarantee", "tns:BrokerTransportQualityOfService", none), ("MetaDataQueueName", "opc:String", none)]⟩,
  ⟨"AliasNameDataType", [("AliasName", "ua:QualifiedName", none), ("NoOfReferencedNodes", "opc:Int32", none), ("ReferencedNodes", "ua:ExpandedNodeId", some "NoOfReferencedNodes")]⟩,
  ⟨"RolePermissionType", [("RoleId", "ua:NodeId", none), ("Permissions", "tns:PermissionType", none)]⟩,
  ⟨"StructureField", [("Name", "opc:String", none), ("Description", "ua:LocalizedText", none), ("DataType", "ua:NodeId", none), ("ValueRank", "opc:Int32", none), ("NoOfArrayDimensions", "opc:Int32", none), ("ArrayDimensions", "opc:UInt32", some "NoOfArrayDimensions"), ("MaxStringLength", "opc:UInt32", none), ("IsOptional", "opc:Boolean", none)]⟩,
  ⟨"StructureDefinition", [("DefaultEncodingId", "ua:NodeId", none), ("BaseDataType", "ua:NodeId", none), ("StructureType", "tns:StructureType", none), ("NoOfFields", "opc:Int32", none), ("Fields", "tns:StructureField", some "NoOfFields")]⟩,
  ⟨"EnumDefinition", [("NoOfFields", "opc:Int32", none), ("Fields", "tns:EnumField", some "NoOfFields")]⟩,
  ⟨"Argument", [("Name", "opc:String", none), ("DataType", "ua:NodeId", none), ("ValueRank", "opc:Int32", none), ("NoOfArrayDimensions", "opc:Int32", none), ("ArrayDimensions", "opc:UInt32", some "NoOfArrayDimensions"), ("Description", "ua:LocalizedText", none)]⟩,
  ⟨"EnumValueType", [("Value", "opc:Int64", none), ("DisplayName", "ua:LocalizedText", none), ("Description", "ua:LocalizedText", none)]⟩]

def types2 : List StructuredType := [
  ⟨"EnumField", [("Value", "opc:Int64", none), ("DisplayName", "ua:LocalizedText", none), ("Description", "ua:LocalizedText", none), ("Name", "opc:String", none)]⟩,
  ⟨"OptionSet", [("Value", "opc:ByteString", none), ("ValidBits", "opc:ByteString", none)]⟩,
  ⟨"Union", []⟩,
  ⟨"TimeZoneDataType", [("Offset", "opc:Int16", none), ("DaylightSavingInOffset", "opc:Boolean", none)]⟩,
  ⟨"ApplicationDescription", [("ApplicationUri", "opc:String", none), ("ProductUri", "opc:String", none), ("ApplicationName", "ua:LocalizedText", none), ("ApplicationType", "tns:ApplicationType", none), ("GatewayServerUri", "opc:String", none), ("DiscoveryProfileUri", "opc:String", none), ("NoOfDiscoveryUrls", "opc:Int32", none), ("DiscoveryUrls", "opc:String", some "NoOfDiscoveryUrls")]⟩,
  ⟨"RequestHeader", [("AuthenticationToken", "ua:NodeId", none), ("Timestamp", "opc:DateTime", none), ("RequestHandle", "opc:UInt32", none), ("ReturnDiagnostics", "opc:UInt32", none), ("AuditEntryId", "opc:String", none), ("TimeoutHint", "opc:UInt32", none), ("AdditionalHeader", "ua:ExtensionObject", none)]⟩,
  ⟨"ResponseHeader", [("Timestamp", "opc:DateTime", none), ("RequestHandle", "opc:UInt32", none), ("ServiceResult", "ua:StatusCode", none), ("ServiceDiagnostics", "ua:DiagnosticInfo", none), ("NoOfStringTable", "opc:Int32", none), ("StringTable", "opc:String", some "NoOfStringTable"), ("AdditionalHeader", "ua:ExtensionObject", none)]⟩,
  ⟨"ServiceFault", [("ResponseHeader", "tns:ResponseHeader", none)]⟩,
  ⟨"SessionlessInvokeRequestType", [("NoOfUrisVersion", "opc:Int32", none), ("UrisVersion", "opc:UInt32", some "NoOfUrisVersion"), ("NoOfNamespaceUris", "opc:Int32", none), ("NamespaceUris", "opc:String", some "NoOfNamespaceUris"), ("NoOfServerUris", "opc:Int32", none), ("ServerUris", "opc:String", some "NoOfServerUris"), ("NoOfLocaleIds", "opc:Int32", none), ("LocaleIds", "opc:String", some "NoOfLocaleIds"), ("ServiceId", "opc:UInt32", none)]⟩,
  ⟨"SessionlessInvokeResponseType", [("NoOfNamespaceUris", "opc:Int32", none), ("NamespaceUris", "opc:String", some "NoOfNamespaceUris"), ("NoOfServerUris", "opc:Int32", none), ("ServerUris", "opc:String", some "NoOfServerUris"), ("ServiceId", "opc:UInt32", none)]⟩,
  ⟨"FindServersRequest", [("RequestHeader", "tns:RequestHeader", none), ("EndpointUrl", "opc:String", none), ("NoOfLocaleIds", "opc:Int32", none), ("LocaleIds", "opc:String", some "NoOfLocaleIds"), ("NoOfServerUris", "opc:Int32", none), ("ServerUris", "opc:String", some "NoOfServerUris")]⟩,
  ⟨"FindServersResponse", [("ResponseHeader", "tns:ResponseHeader", none), ("NoOfServers", "opc:Int32", none), ("Servers", "tns:ApplicationDescription", some "NoOfServers")]⟩,
  ⟨"ServerOnNetwork", [("RecordId", "opc:UInt32", none), ("ServerName", "opc:String", none), ("DiscoveryUrl", "opc:String", none), ("NoOfServerCapabilities", "opc:Int32", none), ("ServerCapabilities", "opc:String", some "NoOfServerCapabilities")]⟩,
  ⟨"FindServersOnNetworkRequest", [("RequestHeader", "tns:RequestHeader", none), ("StartingRecordId", "opc:UInt32", none), ("MaxRecordsToReturn", "opc:UInt32", none), ("NoOfServerCapabilityFilter", "opc:Int32", none), ("ServerCapabilityFilter", "opc:String", some "NoOfServerCapabilityFilter")]⟩,
  ⟨"FindServersOnNetworkResponse", [("ResponseHeader", "tns:ResponseHeader", none), ("LastCounterResetTime", "opc:DateTime", none), ("NoOfServers", "opc:Int32", none), ("Servers", "tns:ServerOnNetwork", some "NoOfServers")]⟩,
  ⟨"UserTokenPolicy", [("PolicyId", "opc:String", none), ("TokenType", "tns:UserTokenType", none), ("IssuedTokenType", "opc:String", none), ("IssuerEndpointUrl", "opc:String", none), ("SecurityPolicyUri", "opc:String", none)]⟩,
  ⟨"EndpointDescription", [("EndpointUrl", "opc:String", none), ("Server", "tns:ApplicationDescription", none), ("ServerCertificate", "opc:ByteString", none), ("SecurityMode", "tns:MessageSecurityMode", none), ("SecurityPolicyUri", "opc:String", none), ("NoOfUserIdentityTokens", "opc:Int32", none), ("UserIdentityTokens", "tns:UserTokenPolicy", some "NoOfUserIdentityTokens"), ("TransportProfileUri", "opc:String", none), ("SecurityLevel", "opc:Byte", none)]⟩,
  ⟨"GetEndpointsRequest", [("RequestHeader", "tns:RequestHeader", none), ("EndpointUrl", "opc:String", none), ("NoOfLocaleIds", "opc:Int32", none), ("LocaleIds", "opc:String", some "NoOfLocaleIds"), ("NoOfProfileUris", "opc:Int32", none), ("ProfileUris", "opc:String", some "NoOfProfileUris")]⟩,
  ⟨"GetEndpointsResponse", [("ResponseHeader", "tns:ResponseHeader", none), ("NoOfEndpoints", "opc:Int32", none), ("Endpoints", "tns:EndpointDescription", some "NoOfEndpoints")]⟩,
  ⟨"RegisteredServer", [("ServerUri", "opc:String", none), ("ProductUri", "opc:String", none), ("NoOfServerNames", "opc:Int32", none), ("ServerNames", "ua:LocalizedText", some "NoOfServerNames"), ("ServerType", "tns:ApplicationType", none), ("GatewayServerUri", "opc:String", none), ("NoOfDiscoveryUrls", "opc:Int32", none), ("DiscoveryUrls", "opc:String", some "NoOfDiscoveryUrls"), ("SemaphoreFilePath", "opc:String", none), ("IsOnline", "opc:Boolean", none)]⟩,
  ⟨"RegisterServerRequest", [("RequestHeader", "tns:RequestHeader", none), ("Server", "tns:RegisteredServer", none)]⟩,
  ⟨"RegisterServerResponse", [("ResponseHeader", "tns:ResponseHeader", none)]⟩,
  ⟨"DiscoveryConfiguration", []⟩,
  ⟨"MdnsDiscoveryConfiguration", [("MdnsServerName", "opc:String", none), ("NoOfServerCapabilities", "opc:Int32", none), ("ServerCapabilities", "opc:String", some "NoOfServerCapabilities")]⟩,
  ⟨"RegisterServer2Request", [("RequestHeader", "tns:RequestHeader", none), ("Server", "tns:RegisteredServer", none), ("NoOfDiscoveryConfiguration", "opc:Int32", none), ("DiscoveryConfiguration", "ua:ExtensionObject", some "NoOfDiscoveryConfiguration")]⟩,
  ⟨"RegisterServer2Response", [("ResponseHeader", "tns:ResponseHeader", none), ("NoOfConfigurationResults", "opc:Int32", none), ("ConfigurationResults", "ua:StatusCode", some "NoOfConfigurationResults"), ("NoOfDiagnosticInfos", "opc:Int32", none), ("DiagnosticInfos", "ua:DiagnosticInfo", some "NoOfDiagnosticInfos")]⟩,
  ⟨"ChannelSecurityToken", [("ChannelId", "opc:UInt32", none), ("TokenId", "opc:UInt32", none), ("CreatedAt", "opc:DateTime", none), ("RevisedLifetime", "opc:UInt32", none)]⟩,
  ⟨"OpenSecureChannelRequest", [("RequestHeader", "tns:RequestHeader", none), ("ClientProtocolVersion", "opc:UInt32", none), ("RequestType", "tns:SecurityTokenRequestType", none), ("SecurityMode", "tns:MessageSecurityMode", none), ("ClientNonce", "opc:ByteString", none), ("RequestedLifetime", "opc:UInt32", none)]⟩,
  ⟨"OpenSecureChannelResponse", [("ResponseHeader", "tns:ResponseHeader", none), ("ServerProtocolVersion", "opc:UInt32", none), ("SecurityToken", "tns:ChannelSecurityToken", none), ("ServerNonce", "opc:ByteString", none)]⟩,
  ⟨"CloseSecureChannelRequest", [("RequestHeader", "tns:RequestHeader", none)]⟩,
  ⟨"CloseSecureChannelResponse", [("ResponseHeader", "tns:ResponseHeader", none)]⟩,
  ⟨"SignedSoftwareCertificate", [("CertificateData", "opc:ByteString", none), ("Signature", "opc:ByteString", none)]⟩,
  ⟨"SignatureData", [("Algorithm", "opc:String", none), ("Signature", "opc:ByteString", none)]⟩,
  ⟨"CreateSessionRequest", [("RequestHeader", "tns:RequestHeader", none), ("ClientDescription", "tns:ApplicationDescription", none), ("ServerUri", "opc:String", none), ("EndpointUrl", "opc:String", none), ("SessionName", "opc:String", none), ("ClientNonce", "opc:ByteString", none), ("ClientCertificate", "opc:ByteString", none), ("RequestedSessionTimeout", "opc:Double", none), ("MaxResponseMessageSize", "opc:UInt32", none)]⟩,
  ⟨"CreateSessionResponse", [("ResponseHeader", "tns:ResponseHeader", none), ("SessionId", "ua:NodeId", none), ("AuthenticationToken", "ua:NodeId", none), ("RevisedSessionTimeout", "opc:Double", none), ("ServerNonce", "opc:ByteString", none), ("ServerCertificate", "opc:ByteString", none), ("NoOfServerEndpoints", "opc:Int32", none), ("ServerEndpoints", "tns:EndpointDescription", some "NoOfServerEndpoints"), ("NoOfServerSoftwareCertificates", "opc:Int32", none), ("ServerSoftwareCertificates", "tns:SignedSoftwareCertificate", some "NoOfServerSoftwareCertificates"), ("ServerSignature", "tns:SignatureData", none), ("MaxRequestMessageSize", "opc:UInt32", none)]⟩,
  ⟨"UserIdentityToken", [("PolicyId", "opc:String", none)]⟩]

def types3 : List StructuredType := [
  ⟨"AnonymousIdentityToken", [("PolicyId", "opc:String", none)]⟩,
  ⟨"UserNameIdentityToken", [("PolicyId", "opc:String", none), ("UserName", "opc:String", none), ("Password", "opc:ByteString", none), ("EncryptionAlgorithm", "opc:String", none)]⟩,
  ⟨"X509IdentityToken", [("PolicyId", "opc:String", none), ("CertificateData", "opc:ByteString", none)]⟩,
  ⟨"IssuedIdentityToken", [("PolicyId", "opc:String", none), ("TokenData", "opc:ByteString", none), ("EncryptionAlgorithm", "opc:String", none)]⟩,
  ⟨"ActivateSessionRequest", [("RequestHeader", "tns:RequestHeader", none), ("ClientSignature", "tns:SignatureData", none), ("NoOfClientSoftwareCertificates", "opc:Int32", none), ("ClientSoftwareCertificates", "tns:SignedSoftwareCertificate", some "NoOfClientSoftwareCertificates"), ("NoOfLocaleIds", "opc:Int32", none), ("LocaleIds", "opc:String", some "NoOfLocaleIds"), ("UserIdentityToken", "ua:ExtensionObject", none), ("UserTokenSignature", "tns:SignatureData", none)]⟩,
  ⟨"ActivateSessionResponse", [("ResponseHeader", "tns:ResponseHeader", none), ("ServerNonce", "opc:ByteString", none), ("NoOfResults", "opc:Int32", none), ("Results", "ua:StatusCode", some "NoOfResults"), ("NoOfDiagnosticInfos", "opc:Int32", none), ("DiagnosticInfos", "ua:DiagnosticInfo", some "NoOfDiagnosticInfos")]⟩,
  ⟨"CloseSessionRequest", [("RequestHeader", "tns:RequestHeader", none), ("DeleteSubscriptions", "opc:Boolean", none)]⟩,
  ⟨"CloseSessionResponse", [("ResponseHeader", "tns:ResponseHeader", none)]⟩,
  ⟨"CancelRequest", [("RequestHeader", "tns:RequestHeader", none), ("RequestHandle", "opc:UInt32", none)]⟩,
  ⟨"CancelResponse", [("ResponseHeader", "tns:ResponseHeader", none), ("CancelCount", "opc:UInt32", none)]⟩,
  ⟨"NodeAttributes", [("SpecifiedAttributes", "opc:UInt32", none), ("DisplayName", "ua:LocalizedText", none), ("Description", "ua:LocalizedText", none), ("WriteMask", "opc:UInt32", none), ("UserWriteMask", "opc:UInt32", none)]⟩,
  ⟨"ObjectAttributes", [("SpecifiedAttributes", "opc:UInt32", none), ("DisplayName", "ua:LocalizedText", none), ("Description", "ua:LocalizedText", none), ("WriteMask", "opc:UInt32", none), ("UserWriteMask", "opc:UInt32", none), ("EventNotifier", "opc:Byte", none)]⟩,
  ⟨"VariableAttributes", [("SpecifiedAttributes", "opc:UInt32", none), ("DisplayName", "ua:LocalizedText", none), ("Description", "ua:LocalizedText", none), ("WriteMask", "opc:UInt32", none), ("UserWriteMask", "opc:UInt32", none), ("Value", "ua:Variant", none), ("DataType", "ua:NodeId", none), ("ValueRank", "opc:Int32", none), ("NoOfArrayDimensions", "opc:Int32", none), ("ArrayDimensions", "opc:UInt32", some "NoOfArrayDimensions"), ("AccessLevel", "opc:Byte", none), ("UserAccessLevel", "opc:Byte", none), ("MinimumSamplingInterval", "opc:Double", none), ("Historizing", "opc:Boolean", none)]⟩,
  ⟨"MethodAttributes", [("SpecifiedAttributes", "opc:UInt32", none), ("DisplayName", "ua:LocalizedText", none), ("Description", "ua:LocalizedText", none), ("WriteMask", "opc:UInt32", none), ("UserWriteMask", "opc:UInt32", none), ("Executable", "opc:Boolean", none), ("UserExecutable", "opc:Boolean", none)]⟩,
  ⟨"ObjectTypeAttributes", [("SpecifiedAttributes", "opc:UInt32", none), ("DisplayName", "ua:LocalizedText", none), ("Description", "ua:LocalizedText", none), ("WriteMask", "opc:UInt32", none), ("UserWriteMask", "opc:UInt32", none), ("IsAbstract", "opc:Boolean", none)]⟩,
  ⟨"VariableTypeAttributes", [("SpecifiedAttributes", "opc:UInt32", none), ("DisplayName", "ua:LocalizedText", none), ("Description", "ua:LocalizedText", none), ("WriteMask", "opc:UInt32", none), ("UserWriteMask", "opc:UInt32", none), ("Value", "ua:Variant", none), ("DataType", "ua:NodeId", none), ("ValueRank", "opc:Int32", none), ("NoOfArrayDimensions", "opc:Int32", none), ("ArrayDimensions", "opc:UInt32", some "NoOfArrayDimensions"), ("IsAbstract", "opc:Boolean", none)]⟩,
  ⟨"ReferenceTypeAttributes", [("SpecifiedAttributes", "opc:UInt32", none), ("DisplayName", "ua:LocalizedText", none), ("Description", "ua:LocalizedText", none), ("WriteMask", "opc:UInt32", none), ("UserWriteMask", "opc:UInt32", none), ("IsAbstract", "opc:Boolean", none), ("Symmetric", "opc:Boolean", none), ("InverseName", "ua:LocalizedText", none)]⟩,
  ⟨"DataTypeAttributes", [("SpecifiedAttributes", "opc:UInt32", none), ("DisplayName", "ua:LocalizedText", none), ("Description", "ua:LocalizedText", none), ("WriteMask", "opc:UInt32", none), ("UserWriteMask", "opc:UInt32", none), ("IsAbstract", "opc:Boolean", none)]⟩,
  ⟨"ViewAttributes", [("SpecifiedAttributes", "opc:UInt32", none), ("DisplayName", "ua:LocalizedText", none), ("Description", "ua:LocalizedText", none), ("WriteMask", "opc:UInt32", none), ("UserWriteMask", "opc:UInt32", none), ("ContainsNoLoops", "opc:Boolean", none), ("EventNotifier", "opc:Byte", none)]⟩,
  ⟨"GenericAttributeValue", [("AttributeId", "opc:UInt32", none), ("Value", "ua:Variant", none)]⟩,
  ⟨"GenericAttributes", [("SpecifiedAttributes", "opc:UInt32", none), ("DisplayName", "ua:LocalizedText", none), ("Description", "ua:LocalizedText", none), ("WriteMask", "opc:UInt32", none), ("UserWriteMask", "opc:UInt32", none), ("NoOfAttributeValues", "opc:Int32", none), ("AttributeValues", "tns:GenericAttributeValue", some "NoOfAttributeValues")]⟩,
  ⟨"AddNodesItem", [("ParentNodeId", "ua:ExpandedNodeId", none), ("ReferenceTypeId", "ua:NodeId", none), ("RequestedNewNodeId", "ua:ExpandedNodeId", none), ("BrowseName", "ua:QualifiedName", none), ("NodeClass", "tns:NodeClass", none), ("NodeAttributes", "ua:ExtensionObject", none), ("TypeDefinition", "ua:ExpandedNodeId", none)]⟩,
  ⟨"AddNodesResult", [("StatusCode", "ua:StatusCode", none), ("AddedNodeId", "ua:NodeId", none)]⟩,
  ⟨"AddNodesRequest", [("RequestHeader", "tns:RequestHeader", none), ("NoOfNodesToAdd", "opc:Int32", none), ("NodesToAdd", "tns:AddNodesItem", some "NoOfNodesToAdd")]⟩,
  ⟨"AddNodesResponse", [("ResponseHeader", "tns:ResponseHeader", none), ("NoOfResults", "opc:Int32", none), ("Results", "tns:AddNodesResult", some "NoOfResults"), ("NoOfDiagnosticInfos", "opc:Int32", none), ("DiagnosticInfos", "ua:DiagnosticInfo", some "NoOfDiagnosticInfos")]⟩,
  ⟨"AddReferencesItem", [("SourceNodeId", "ua:NodeId", none), ("ReferenceTypeId", "ua:NodeId", none), ("IsForward", "opc:Boolean", none), ("TargetServerUri", "opc:String", none), ("TargetNodeId", "ua:ExpandedNodeId", none), ("TargetNodeClass", "tns:NodeClass", none)]⟩,
  ⟨"AddReferencesRequest", [("RequestHeader", "tns:RequestHeader", none), ("NoOfReferencesToAdd", "opc:Int32", none), ("ReferencesToAdd", "tns:AddReferencesItem", some "NoOfReferencesToAdd")]⟩,
  ⟨"AddReferencesResponse", [("ResponseHeader", "tns:ResponseHeader", none), ("NoOfResults", "opc:Int32", none), ("Results", "ua:StatusCode", some "NoOfResults"), ("NoOfDiagnosticInfos", "opc:Int32", none), ("DiagnosticInfos", "ua:DiagnosticInfo", some "NoOfDiagnosticInfos")]⟩,
  ⟨"DeleteNodesItem", [("NodeId", "ua:NodeId", none), ("DeleteTargetReferences", "opc:Boolean", none)]⟩,
  ⟨"DeleteNodesRequest", [("RequestHeader", "tns:RequestHeader", none), ("NoOfNodesToDelete", "opc:Int32", none), ("NodesToDelete", "tns:DeleteNodesItem", some "NoOfNodesToDelete")]⟩,
  ⟨"DeleteNodesResponse", [("ResponseHeader", "tns:ResponseHeader", none), ("NoOfResults", "opc:Int32", none), ("Results", "ua:StatusCode", some "NoOfResults"), ("NoOfDiagnosticInfos", "opc:Int32", none), ("DiagnosticInfos", "ua:DiagnosticInfo", some "NoOfDiagnosticInfos")]⟩,
  ⟨"DeleteReferencesItem", [("SourceNodeId", "ua:NodeId", none), ("ReferenceTypeId", "ua:NodeId", none), ("IsForward", "opc:Boolean", none), ("TargetNodeId", "ua:ExpandedNodeId", none), ("DeleteBidirectional", "opc:Boolean", none)]⟩,
  ⟨"DeleteReferencesRequest", [("RequestHeader", "tns:RequestHeader", none), ("NoOfReferencesToDelete", "opc:Int32", none), ("ReferencesToDelete", "tns:DeleteReferencesItem", some "NoOfReferencesToDelete")]⟩,
  ⟨"DeleteReferencesResponse", [("ResponseHeader", "tns:ResponseHeader", none), ("NoOfResults", "opc:Int32", none), ("Results", "ua:StatusCode", some "NoOfResults"), ("NoOfDiagnosticInfos", "opc:Int32", none), ("DiagnosticInfos", "ua:DiagnosticInfo", some "NoOfDiagnosticInfos")]⟩,
  ⟨"ViewDescription", [("ViewId", "ua:NodeId", none), ("Timestamp", "opc:DateTime", none), ("ViewVersion", "opc:UInt32", none)]⟩,
  ⟨"BrowseDescription", [("NodeId", "ua:NodeId", none), ("BrowseDirection", "tns:BrowseDirection", none), ("ReferenceTypeId", "ua:NodeId", none), ("IncludeSubtypes", "opc:Boolean", none), ("NodeClassMask", "opc:UInt32", none), ("ResultMask", "opc:UInt32", none)]⟩]

def types4 : List StructuredType := [
  ⟨"ReferenceDescription", [("ReferenceTypeId", "ua:NodeId", none), ("IsForward", "opc:Boolean", none), ("NodeId", "ua:ExpandedNodeId", none), ("BrowseName", "ua:QualifiedName", none), ("DisplayName", "ua:LocalizedText", none), ("NodeClass", "tns:NodeClass", none), ("TypeDefinition", "ua:ExpandedNodeId", none)]⟩,
  ⟨"BrowseResult", [("StatusCode", "ua:StatusCode", none), ("ContinuationPoint", "opc:ByteString", none), ("NoOfReferences", "opc:Int32", none), ("References", "tns:ReferenceDescription", some "NoOfReferences")]⟩,
  ⟨"BrowseRequest", [("RequestHeader", "tns:RequestHeader", none), ("View", "tns:ViewDescription", none), ("RequestedMaxReferencesPerNode", "opc:UInt32", none), ("NoOfNodesToBrowse", "opc:Int32", none), ("NodesToBrowse", "tns:BrowseDescription", some "NoOfNodesToBrowse")]⟩,
  ⟨"BrowseResponse", [("ResponseHeader", "tns:ResponseHeader", none), ("NoOfResults", "opc:Int32", none), ("Results", "tns:BrowseResult", some "NoOfResults"), ("NoOfDiagnosticInfos", "opc:Int32", none), ("DiagnosticInfos", "ua:DiagnosticInfo", some "NoOfDiagnosticInfos")]⟩,
  ⟨"BrowseNextRequest", [("RequestHeader", "tns:RequestHeader", none), ("ReleaseContinuationPoints", "opc:Boolean", none), ("NoOfContinuationPoints", "opc:Int32", none), ("ContinuationPoints", "opc:ByteString", some "NoOfContinuationPoints")]⟩,
  ⟨"BrowseNextResponse", [("ResponseHeader", "tns:ResponseHeader", none), ("NoOfResults", "opc:Int32", none), ("Results", "tns:BrowseResult", some "NoOfResults"), ("NoOfDiagnosticInfos", "opc:Int32", none), ("DiagnosticInfos", "ua:DiagnosticInfo", some "NoOfDiagnosticInfos")]⟩,
  ⟨"RelativePathElement", [("ReferenceTypeId", "ua:NodeId", none), ("IsInverse", "opc:Boolean", none), ("IncludeSubtypes", "opc:Boolean", none), ("TargetName", "ua:QualifiedName", none)]⟩,
  ⟨"RelativePath", [("NoOfElements", "opc:Int32", none), ("Elements", "tns:RelativePathElement", some "NoOfElements")]⟩,
  ⟨"BrowsePath", [("StartingNode", "ua:NodeId", none), ("RelativePath", "tns:RelativePath", none)]⟩,
  ⟨"BrowsePathTarget", [("TargetId", "ua:ExpandedNodeId", none), ("RemainingPathIndex", "opc:UInt32", none)]⟩,
  ⟨"BrowsePathResult", [("StatusCode", "ua:StatusCode", none), ("NoOfTargets", "opc:Int32", none), ("Targets", "tns:BrowsePathTarget", some "NoOfTargets")]⟩,
  ⟨"TranslateBrowsePathsToNodeIdsRequest", [("RequestHeader", "tns:RequestHeader", none), ("NoOfBrowsePaths", "opc:Int32", none), ("BrowsePaths", "tns:BrowsePath", some "NoOfBrowsePaths")]⟩,
  ⟨"TranslateBrowsePathsToNodeIdsResponse", [("ResponseHeader", "tns:ResponseHeader", none), ("NoOfResults", "opc:Int32", none), ("Results", "tns:BrowsePathResult", some "NoOfResults"), ("NoOfDiagnosticInfos", "opc:Int32", none), ("DiagnosticInfos", "ua:DiagnosticInfo", some "NoOfDiagnosticInfos")]⟩,
  ⟨"RegisterNodesRequest", [("RequestHeader", "tns:RequestHeader", none), ("NoOfNodesToRegister", "opc:Int32", none), ("NodesToRegister", "ua:NodeId", some "NoOfNodesToRegister")]⟩,
  ⟨"RegisterNodesResponse", [("ResponseHeader", "tns:ResponseHeader", none), ("NoOfRegisteredNodeIds", "opc:Int32", none), ("RegisteredNodeIds", "ua:NodeId", some "NoOfRegisteredNodeIds")]⟩,
  ⟨"UnregisterNodesRequest", [("RequestHeader", "tns:RequestHeader", none), ("NoOfNodesToUnregister", "opc:Int32", none), ("NodesToUnregister", "ua:NodeId", some "NoOfNodesToUnregister")]⟩,
  ⟨"UnregisterNodesResponse", [("ResponseHeader", "tns:ResponseHeader", none)]⟩,
  ⟨"EndpointConfiguration", [("OperationTimeout", "opc:Int32", none), ("UseBinaryEncoding", "opc:Boolean", none), ("MaxStringLength", "opc:Int32", none), ("MaxByteStringLength", "opc:Int32", none), ("MaxArrayLength", "opc:Int32", none), ("MaxMessageSize", "opc:Int32", none), ("MaxBufferSize", "opc:Int32", none), ("ChannelLifetime", "opc:Int32", none), ("SecurityTokenLifetime", "opc:Int32", none)]⟩,
  ⟨"QueryDataDescription", [("RelativePath", "tns:RelativePath", none), ("AttributeId", "opc:UInt32", none), ("IndexRange", "opc:String", none)]⟩,
  ⟨"NodeTypeDescription", [("TypeDefinitionNode", "ua:ExpandedNodeId", none), ("IncludeSubTypes", "opc:Boolean", none), ("NoOfDataToReturn", "opc:Int32", none), ("DataToReturn", "tns:QueryDataDescription", some "NoOfDataToReturn")]⟩,
  ⟨"QueryDataSet", [("NodeId", "ua:ExpandedNodeId", none), ("TypeDefinitionNode", "ua:ExpandedNodeId", none), ("NoOfValues", "opc:Int32", none), ("Values", "ua:Variant", some "NoOfValues")]⟩,
  ⟨"NodeReference", [("NodeId", "ua:NodeId", none), ("ReferenceTypeId", "ua:NodeId", none), ("IsForward", "opc:Boolean", none), ("NoOfReferencedNodeIds", "opc:Int32", none), ("ReferencedNodeIds", "ua:NodeId", some "NoOfReferencedNodeIds")]⟩,
  ⟨"ContentFilterElement", [("FilterOperator", "tns:FilterOperator", none), ("NoOfFilterOperands", "opc:Int32", none), ("FilterOperands", "ua:ExtensionObject", some "NoOfFilterOperands")]⟩,
  ⟨"ContentFilter", [("NoOfElements", "opc:Int32", none), ("Elements", "tns:ContentFilterElement", some "NoOfElements")]⟩,
  ⟨"FilterOperand", []⟩,
  ⟨"ElementOperand", [("Index", "opc:UInt32", none)]⟩,
  ⟨"LiteralOperand", [("Value", "ua:Variant", none)]⟩,
  ⟨"AttributeOperand", [("NodeId", "ua:NodeId", none), ("Alias", "opc:String", none), ("BrowsePath", "tns:RelativePath", none), ("AttributeId", "opc:UInt32", none), ("IndexRange", "opc:String", none)]⟩,
  ⟨"SimpleAttributeOperand", [("TypeDefinitionId", "ua:NodeId", none), ("NoOfBrowsePath", "opc:Int32", none), ("BrowsePath", "ua:QualifiedName", some "NoOfBrowsePath"), ("AttributeId", "opc:UInt32", none), ("IndexRange", "opc:String", none)]⟩,
  ⟨"ContentFilterElementResult", [("StatusCode", "ua:StatusCode", none), ("NoOfOperandStatusCodes", "opc:Int32", none), ("OperandStatusCodes", "ua:StatusCode", some "NoOfOperandStatusCodes"), ("NoOfOperandDiagnosticInfos", "opc:Int32", none), ("OperandDiagnosticInfos", "ua:DiagnosticInfo", some "NoOfOperandDiagnosticInfos")]⟩,
  ⟨"ContentFilterResult", [("NoOfElementResults", "opc:Int32", none), ("ElementResults", "tns:ContentFilterElementResult", some "NoOfElementResults"), ("NoOfElementDiagnosticInfos", "opc:Int32", none), ("ElementDiagnosticInfos", "ua:DiagnosticInfo", some "NoOfElementDiagnosticInfos")]⟩,
  ⟨"ParsingResult", [("StatusCode", "ua:StatusCode", none), ("NoOfDataStatusCodes", "opc:Int32", none), ("DataStatusCodes", "ua:StatusCode", some "NoOfDataStatusCodes"), ("NoOfDataDiagnosticInfos", "opc:Int32", none), ("DataDiagnosticInfos", "ua:DiagnosticInfo", some "NoOfDataDiagnosticInfos")]⟩,
  ⟨"QueryFirstRequest", [("RequestHeader", "tns:RequestHeader", none), ("View", "tns:ViewDescription", none), ("NoOfNodeTypes", "opc:Int32", none), ("NodeTypes", "tns:NodeTypeDescription", some "NoOfNodeTypes"), ("Filter", "tns:ContentFilter", none), ("MaxDataSetsToReturn", "opc:UInt32", none), ("MaxReferencesToReturn", "opc:UInt32", none)]⟩,
  ⟨"QueryFirstResponse", [("ResponseHeader", "tns:ResponseHeader", none), ("NoOfQueryDataSets", "opc:Int32", none), ("QueryDataSets", "tns:QueryDataSet", some "NoOfQueryDataSets"), ("ContinuationPoint", "opc:ByteString", none), ("NoOfParsingResults", "opc:Int32", none), ("ParsingResults", "tns:ParsingResult", some "NoOfParsingResults"), ("NoOfDiagnosticInfos", "opc:Int32", none), ("DiagnosticInfos", "ua:DiagnosticInfo", some "NoOfDiagnosticInfos"), ("FilterResult", "tns:ContentFilterResult", none)]⟩,
  ⟨"QueryNextRequest", [("RequestHeader", "tns:RequestHeader", none), ("ReleaseContinuationPoint", "opc:Boolean", none), ("ContinuationPoint", "opc:ByteString", none)]⟩,
  ⟨"QueryNextResponse", [("ResponseHeader", "tns:ResponseHeader", none), ("NoOfQueryDataSets", "opc:Int32", none), ("QueryDataSets", "tns:QueryDataSet", some "NoOfQueryDataSets"), ("RevisedContinuationPoint", "opc:ByteString", none)]⟩]

def types5 : List StructuredType := [
  ⟨"ReadValueId", [("NodeId", "ua:NodeId", none), ("AttributeId", "opc:UInt32", none), ("IndexRange", "opc:String", none), ("DataEncoding", "ua:QualifiedName", none)]⟩,
  ⟨"ReadRequest", [("RequestHeader", "tns:RequestHeader", none), ("MaxAge", "opc:Double", none), ("TimestampsToReturn", "tns:TimestampsToReturn", none), ("NoOfNodesToRead", "opc:Int32", none), ("NodesToRead", "tns:ReadValueId", some "NoOfNodesToRead")]⟩,
  ⟨"ReadResponse", [("ResponseHeader", "tns:ResponseHeader", none), ("NoOfResults", "opc:Int32", none), ("Results", "ua:DataValue", some "NoOfResults"), ("NoOfDiagnosticInfos", "opc:Int32", none), ("DiagnosticInfos", "ua:DiagnosticInfo", some "NoOfDiagnosticInfos")]⟩,
  ⟨"HistoryReadValueId", [("NodeId", "ua:NodeId", none), ("IndexRange", "opc:String", none), ("DataEncoding", "ua:QualifiedName", none), ("ContinuationPoint", "opc:ByteString", none)]⟩,
  ⟨"HistoryReadResult", [("StatusCode", "ua:StatusCode", none), ("ContinuationPoint", "opc:ByteString", none), ("HistoryData", "ua:ExtensionObject", none)]⟩,
  ⟨"HistoryReadDetails", []⟩,
  ⟨"ReadEventDetails", [("NumValuesPerNode", "opc:UInt32", none), ("StartTime", "opc:DateTime", none), ("EndTime", "opc:DateTime", none), ("Filter", "tns:EventFilter", none)]⟩,
  ⟨"ReadRawModifiedDetails", [("IsReadModified", "opc:Boolean", none), ("StartTime", "opc:DateTime", none), ("EndTime", "opc:DateTime", none), ("NumValuesPerNode", "opc:UInt32", none), ("ReturnBounds", "opc:Boolean", none)]⟩,
  ⟨"ReadProcessedDetails", [("StartTime", "opc:DateTime", none), ("EndTime", "opc:DateTime", none), ("ProcessingInterval", "opc:Double", none), ("NoOfAggregateType", "opc:Int32", none), ("AggregateType", "ua:NodeId", some "NoOfAggregateType"), ("AggregateConfiguration", "tns:AggregateConfiguration", none)]⟩,
  ⟨"ReadAtTimeDetails", [("NoOfReqTimes", "opc:Int32", none), ("ReqTimes", "opc:DateTime", some "NoOfReqTimes"), ("UseSimpleBounds", "opc:Boolean", none)]⟩,
  ⟨"ReadAnnotationDataDetails", [("NoOfReqTimes", "opc:Int32", none), ("ReqTimes", "opc:DateTime", some "NoOfReqTimes")]⟩,
  ⟨"HistoryData", [("NoOfDataValues", "opc:Int32", none), ("DataValues", "ua:DataValue", some "NoOfDataValues")]⟩,
  ⟨"ModificationInfo", [("ModificationTime", "opc:DateTime", none), ("UpdateType", "tns:HistoryUpdateType", none), ("UserName", "opc:String", none)]⟩,
  ⟨"HistoryModifiedData", [("NoOfDataValues", "opc:Int32", none), ("DataValues", "ua:DataValue", some "NoOfDataValues"), ("NoOfModificationInfos", "opc:Int32", none), ("ModificationInfos", "tns:ModificationInfo", some "NoOfModificationInfos")]⟩,
  ⟨"HistoryEvent", [("NoOfEvents", "opc:Int32", none), ("Events", "tns:HistoryEventFieldList", some "NoOfEvents")]⟩,
  ⟨"HistoryReadRequest", [("RequestHeader", "tns:RequestHeader", none), ("HistoryReadDetails", "ua:ExtensionObject", none), ("TimestampsToReturn", "tns:TimestampsToReturn", none), ("ReleaseContinuationPoints", "opc:Boolean", none), ("NoOfNodesToRead", "opc:Int32", none), ("NodesToRead", "tns:HistoryReadValueId", some "NoOfNodesToRead")]⟩,
  ⟨"HistoryReadResponse", [("ResponseHeader", "tns:ResponseHeader", none), ("NoOfResults", "opc:Int32", none), ("Results", "tns:HistoryReadResult", some "NoOfResults"), ("NoOfDiagnosticInfos", "opc:Int32", none), ("DiagnosticInfos", "ua:DiagnosticInfo", some "NoOfDiagnosticInfos")]⟩,
  ⟨"WriteValue", [("NodeId", "ua:NodeId", none), ("AttributeId", "opc:UInt32", none), ("IndexRange", "opc:String", none), ("Value", "ua:DataValue", none)]⟩,
  ⟨"WriteRequest", [("RequestHeader", "tns:RequestHeader", none), ("NoOfNodesToWrite", "opc:Int32", none), ("NodesToWrite", "tns:WriteValue", some "NoOfNodesToWrite")]⟩,
  ⟨"WriteResponse", [("ResponseHeader", "tns:ResponseHeader", none), ("NoOfResults", "opc:Int32", none), ("Results", "ua:StatusCode", some "NoOfResults"), ("NoOfDiagnosticInfos", "opc:Int32", none), ("DiagnosticInfos", "ua:DiagnosticInfo", some "NoOfDiagnosticInfos")]⟩,
  ⟨"HistoryUpdateDetails", [("NodeId", "ua:NodeId", none)]⟩,
  ⟨"UpdateDataDetails", [("NodeId", "ua:NodeId", none), ("PerformInsertReplace", "tns:PerformUpdateType", none), ("NoOfUpdateValues", "opc:Int32", none), ("UpdateValues", "ua:DataValue", some "NoOfUpdateValues")]⟩,
  ⟨"UpdateStructureDataDetails", [("NodeId", "ua:NodeId", none), ("PerformInsertReplace", "tns:PerformUpdateType", none), ("NoOfUpdateValues", "opc:Int32", none), ("UpdateValues", "ua:DataValue", some "NoOfUpdateValues")]⟩,
  ⟨"UpdateEventDetails", [("NodeId", "ua:NodeId", none), ("PerformInsertReplace", "tns:PerformUpdateType", none), ("Filter", "tns:EventFilter", none), ("NoOfEventData", "opc:Int32", none), ("EventData", "tns:HistoryEventFieldList", some "NoOfEventData")]⟩,
  ⟨"DeleteRawModifiedDetails", [("NodeId", "ua:NodeId", none), ("IsDeleteModified", "opc:Boolean", none), ("StartTime", "opc:DateTime", none), ("EndTime", "opc:DateTime", none)]⟩,
  ⟨"DeleteAtTimeDetails", [("NodeId", "ua:NodeId", none), ("NoOfReqTimes", "opc:Int32", none), ("ReqTimes", "opc:DateTime", some "NoOfReqTimes")]⟩,
  ⟨"DeleteEventDetails", [("NodeId", "ua:NodeId", none), ("NoOfEventIds", "opc:Int32", none), ("EventIds", "opc:ByteString", some "NoOfEventIds")]⟩,
  ⟨"HistoryUpdateResult", [("StatusCode", "ua:StatusCode", none), ("NoOfOperationResults", "opc:Int32", none), ("OperationResults", "ua:StatusCode", some "NoOfOperationResults"), ("NoOfDiagnosticInfos", "opc:Int32", none), ("DiagnosticInfos", "ua:DiagnosticInfo", some "NoOfDiagnosticInfos")]⟩,
  ⟨"HistoryUpdateRequest", [("RequestHeader", "tns:RequestHeader", none), ("NoOfHistoryUpdateDetails", "opc:Int32", none), ("HistoryUpdateDetails", "ua:ExtensionObject", some "NoOfHistoryUpdateDetails")]⟩,
  ⟨"HistoryUpdateResponse", [("ResponseHeader", "tns:ResponseHeader", none), ("NoOfResults", "opc:Int32", none), ("Results", "tns:HistoryUpdateResult", some "NoOfResults"), ("NoOfDiagnosticInfos", "opc:Int32", none), ("DiagnosticInfos", "ua:DiagnosticInfo", some "NoOfDiagnosticInfos")]⟩,
  ⟨"CallMethodRequest", [("ObjectId", "ua:NodeId", none), ("MethodId", "ua:NodeId", none), ("NoOfInputArguments", "opc:Int32", none), ("InputArguments", "ua:Variant", some "NoOfInputArguments")]⟩,
  ⟨"CallMethodResult", [("StatusCode", "ua:StatusCode", none), ("NoOfInputArgumentResults", "opc:Int32", none), ("InputArgumentResults", "ua:StatusCode", some "NoOfInputArgumentResults"), ("NoOfInputArgumentDiagnosticInfos", "opc:Int32", none), ("InputArgumentDiagnosticInfos", "ua:DiagnosticInfo", some "NoOfInputArgumentDiagnosticInfos"), ("NoOfOutputArguments", "opc:Int32", none), ("OutputArguments", "ua:Variant", some "NoOfOutputArguments")]⟩,
  ⟨"CallRequest", [("RequestHeader", "tns:RequestHeader", none), ("NoOfMethodsToCall", "opc:Int32", none), ("MethodsToCall", "tns:CallMethodRequest", some "NoOfMethodsToCall")]⟩,
  ⟨"CallResponse", [("ResponseHeader", "tns:ResponseHeader", none), ("NoOfResults", "opc:Int32", none), ("Results", "tns:CallMethodResult", some "NoOfResults"), ("NoOfDiagnosticInfos", "opc:Int32", none), ("DiagnosticInfos", "ua:DiagnosticInfo", some "NoOfDiagnosticInfos")]⟩,
  ⟨"MonitoringFilter", []⟩,
  ⟨"DataChangeFilter", [("Trigger", "tns:DataChangeTrigger", none), ("DeadbandType", "opc:UInt32", none), ("DeadbandValue", "opc:Double", none)]⟩]

def types6 : List StructuredType := [
  ⟨"EventFilter", [("NoOfSelectClauses", "opc:Int32", none), ("SelectClauses", "tns:SimpleAttributeOperand", some "NoOfSelectClauses"), ("WhereClause", "tns:ContentFilter", none)]⟩,
  ⟨"AggregateConfiguration", [("UseServerCapabilitiesDefaults", "opc:Boolean", none), ("TreatUncertainAsBad", "opc:Boolean", none), ("PercentDataBad", "opc:Byte", none), ("PercentDataGood", "opc:Byte", none), ("UseSlopedExtrapolation", "opc:Boolean", none)]⟩,
  ⟨"AggregateFilter", [("StartTime", "opc:DateTime", none), ("AggregateType", "ua:NodeId", none), ("ProcessingInterval", "opc:Double", none), ("AggregateConfiguration", "tns:AggregateConfiguration", none)]⟩,
  ⟨"MonitoringFilterResult", []⟩,
  ⟨"EventFilterResult", [("NoOfSelectClauseResults", "opc:Int32", none), ("SelectClauseResults", "ua:StatusCode", some "NoOfSelectClauseResults"), ("NoOfSelectClauseDiagnosticInfos", "opc:Int32", none), ("SelectClauseDiagnosticInfos", "ua:DiagnosticInfo", some "NoOfSelectClauseDiagnosticInfos"), ("WhereClauseResult", "tns:ContentFilterResult", none)]⟩,
  ⟨"AggregateFilterResult", [("RevisedStartTime", "opc:DateTime", none), ("RevisedProcessingInterval", "opc:Double", none), ("RevisedAggregateConfiguration", "tns:AggregateConfiguration", none)]⟩,
  ⟨"MonitoringParameters", [("ClientHandle", "opc:UInt32", none), ("SamplingInterval", "opc:Double", none), ("Filter", "ua:ExtensionObject", none), ("QueueSize", "opc:UInt32", none), ("DiscardOldest", "opc:Boolean", none)]⟩,
  ⟨"MonitoredItemCreateRequest", [("ItemToMonitor", "tns:ReadValueId", none), ("MonitoringMode", "tns:MonitoringMode", none), ("RequestedParameters", "tns:MonitoringParameters", none)]⟩,
  ⟨"MonitoredItemCreateResult", [("StatusCode", "ua:StatusCode", none), ("MonitoredItemId", "opc:UInt32", none), ("RevisedSamplingInterval", "opc:Double", none), ("RevisedQueueSize", "opc:UInt32", none), ("FilterResult", "ua:ExtensionObject", none)]⟩,
  ⟨"CreateMonitoredItemsRequest", [("RequestHeader", "tns:RequestHeader", none), ("SubscriptionId", "opc:UInt32", none), ("TimestampsToReturn", "tns:TimestampsToReturn", none), ("NoOfItemsToCreate", "opc:Int32", none), ("ItemsToCreate", "tns:MonitoredItemCreateRequest", some "NoOfItemsToCreate")]⟩,
  ⟨"CreateMonitoredItemsResponse", [("ResponseHeader", "tns:ResponseHeader", none), ("NoOfResults", "opc:Int32", none), ("Results", "tns:MonitoredItemCreateResult", some "NoOfResults"), ("NoOfDiagnosticInfos", "opc:Int32", none), ("DiagnosticInfos", "ua:DiagnosticInfo", some "NoOfDiagnosticInfos")]⟩,
  ⟨"MonitoredItemModifyRequest", [("MonitoredItemId", "opc:UInt32", none), ("RequestedParameters", "tns:MonitoringParameters", none)]⟩,
  ⟨"MonitoredItemModifyResult", [("StatusCode", "ua:StatusCode", none), ("RevisedSamplingInterval", "opc:Double", none), ("RevisedQueueSize", "opc:UInt32", none), ("FilterResult", "ua:ExtensionObject", none)]⟩,
  ⟨"ModifyMonitoredItemsRequest", [("RequestHeader", "tns:RequestHeader", none), ("SubscriptionId", "opc:UInt32", none), ("TimestampsToReturn", "tns:TimestampsToReturn", none), ("NoOfItemsToModify", "opc:Int32", none), ("ItemsToModify", "tns:MonitoredItemModifyRequest", some "NoOfItemsToModify")]⟩,
  ⟨"ModifyMonitoredItemsResponse", [("ResponseHeader", "tns:ResponseHeader", none), ("NoOfResults", "opc:Int32", none), ("Results", "tns:MonitoredItemModifyResult", some "NoOfResults"), ("NoOfDiagnosticInfos", "opc:Int32", none), ("DiagnosticInfos", "ua:DiagnosticInfo", some "NoOfDiagnosticInfos")]⟩,
  ⟨"SetMonitoringModeRequest", [("RequestHeader", "tns:RequestHeader", none), ("SubscriptionId", "opc:UInt32", none), ("MonitoringMode", "tns:MonitoringMode", none), ("NoOfMonitoredItemIds", "opc:Int32", none), ("MonitoredItemIds", "opc:UInt32", some "NoOfMonitoredItemIds")]⟩,
  ⟨"SetMonitoringModeResponse", [("ResponseHeader", "tns:ResponseHeader", none), ("NoOfResults", "opc:Int32", none), ("Results", "ua:StatusCode", some "NoOfResults"), ("NoOfDiagnosticInfos", "opc:Int32", none), ("DiagnosticInfos", "ua:DiagnosticInfo", some "NoOfDiagnosticInfos")]⟩,
  ⟨"SetTriggeringRequest", [("RequestHeader", "tns:RequestHeader", none), ("SubscriptionId", "opc:UInt32", none), ("TriggeringItemId", "opc:UInt32", none), ("NoOfLinksToAdd", "opc:Int32", none), ("LinksToAdd", "opc:UInt32", some "NoOfLinksToAdd"), ("NoOfLinksToRemove", "opc:Int32", none), ("LinksToRemove", "opc:UInt32", some "NoOfLinksToRemove")]⟩,
  ⟨"SetTriggeringResponse", [("ResponseHeader", "tns:ResponseHeader", none), ("NoOfAddResults", "opc:Int32", none), ("AddResults", "ua:StatusCode", some "NoOfAddResults"), ("NoOfAddDiagnosticInfos", "opc:Int32", none), ("AddDiagnosticInfos", "ua:DiagnosticInfo", some "NoOfAddDiagnosticInfos"), ("NoOfRemoveResults", "opc:Int32", none), ("RemoveResults", "ua:StatusCode", some "NoOfRemoveResults"), ("NoOfRemoveDiagnosticInfos", "opc:Int32", none), ("RemoveDiagnosticInfos", "ua:DiagnosticInfo", some "NoOfRemoveDiagnosticInfos")]⟩,
  ⟨"DeleteMonitoredItemsRequest", [("RequestHeader", "tns:RequestHeader", none), ("SubscriptionId", "opc:UInt32", none), ("NoOfMonitoredItemIds", "opc:Int32", none), ("MonitoredItemIds", "opc:UInt32", some "NoOfMonitoredItemIds")]⟩,
  ⟨"DeleteMonitoredItemsResponse", [("ResponseHeader", "tns:ResponseHeader", none), ("NoOfResults", "opc:Int32", none), ("Results", "ua:StatusCode", some "NoOfResults"), ("NoOfDiagnosticInfos", "opc:Int32", none), ("DiagnosticInfos", "ua:DiagnosticInfo", some "NoOfDiagnosticInfos")]⟩,
  ⟨"CreateSubscriptionRequest", [("RequestHeader", "tns:RequestHeader", none), ("RequestedPublishingInterval", "opc:Double", none), ("RequestedLifetimeCount", "opc:UInt32", none), ("RequestedMaxKeepAliveCount", "opc:UInt32", none), ("MaxNotificationsPerPublish", "opc:UInt32", none), ("PublishingEnabled", "opc:Boolean", none), ("Priority", "opc:Byte", none)]⟩,
  ⟨"CreateSubscriptionResponse", [("ResponseHeader", "tns:ResponseHeader", none), ("SubscriptionId", "opc:UInt32", none), ("RevisedPublishingInterval", "opc:Double", none), ("RevisedLifetimeCount", "opc:UInt32", none), ("RevisedMaxKeepAliveCount", "opc:UInt32", none)]⟩,
  ⟨"ModifySubscriptionRequest", [("RequestHeader", "tns:RequestHeader", none), ("SubscriptionId", "opc:UInt32", none), ("RequestedPublishingInterval", "opc:Double", none), ("RequestedLifetimeCount", "opc:UInt32", none), ("RequestedMaxKeepAliveCount", "opc:UInt32", none), ("MaxNotificationsPerPublish", "opc:UInt32", none), ("Priority", "opc:Byte", none)]⟩,
  ⟨"ModifySubscriptionResponse", [("ResponseHeader", "tns:ResponseHeader", none), ("RevisedPublishingInterval", "opc:Double", none), ("RevisedLifetimeCount", "opc:UInt32", none), ("RevisedMaxKeepAliveCount", "opc:UInt32", none)]⟩,
  ⟨"SetPublishingModeRequest", [("RequestHeader", "tns:RequestHeader", none), ("PublishingEnabled", "opc:Boolean", none), ("NoOfSubscriptionIds", "opc:Int32", none), ("SubscriptionIds", "opc:UInt32", some "NoOfSubscriptionIds")]⟩,
  ⟨"SetPublishingModeResponse", [("ResponseHeader", "tns:ResponseHeader", none), ("NoOfResults", "opc:Int32", none), ("Results", "ua:StatusCode", some "NoOfResults"), ("NoOfDiagnosticInfos", "opc:Int32", none), ("DiagnosticInfos", "ua:DiagnosticInfo", some "NoOfDiagnosticInfos")]⟩,
  ⟨"NotificationMessage", [("SequenceNumber", "opc:UInt32", none), ("PublishTime", "opc:DateTime", none), ("NoOfNotificationData", "opc:Int32", none), ("NotificationData", "ua:ExtensionObject", some "NoOfNotificationData")]⟩,
  ⟨"NotificationData", []⟩,
  ⟨"DataChangeNotification", [("NoOfMonitoredItems", "opc:Int32", none), ("MonitoredItems", "tns:MonitoredItemNotification", some "NoOfMonitoredItems"), ("NoOfDiagnosticInfos", "opc:Int32", none), ("DiagnosticInfos", "ua:DiagnosticInfo", some "NoOfDiagnosticInfos")]⟩,
  ⟨"MonitoredItemNotification", [("ClientHandle", "opc:UInt32", none), ("Value", "ua:DataValue", none)]⟩,
  ⟨"EventNotificationList", [("NoOfEvents", "opc:Int32", none), ("Events", "tns:EventFieldList", some "NoOfEvents")]⟩,
  ⟨"EventFieldList", [("ClientHandle", "opc:UInt32", none), ("NoOfEventFields", "opc:Int32", none), ("EventFields", "ua:Variant", some "NoOfEventFields")]⟩,
  ⟨"HistoryEventFieldList", [("NoOfEventFields", "opc:Int32", none), ("EventFields", "ua:Variant", some "NoOfEventFields")]⟩,
  ⟨"StatusChangeNotification", [("Status", "ua:StatusCode", none), ("DiagnosticInfo", "ua:DiagnosticInfo", none)]⟩,
  ⟨"SubscriptionAcknowledgement", [("SubscriptionId", "opc:UInt32", none), ("SequenceNumber", "opc:UInt32", none)]⟩]

def types7 : List StructuredType := [
  ⟨"PublishRequest", [("RequestHeader", "tns:RequestHeader", none), ("NoOfSubscriptionAcknowledgements", "opc:Int32", none), ("SubscriptionAcknowledgements", "tns:SubscriptionAcknowledgement", some "NoOfSubscriptionAcknowledgements")]⟩,
  ⟨"PublishResponse", [("ResponseHeader", "tns:ResponseHeader", none), ("SubscriptionId", "opc:UInt32", none), ("NoOfAvailableSequenceNumbers", "opc:Int32", none), ("AvailableSequenceNumbers", "opc:UInt32", some "NoOfAvailableSequenceNumbers"), ("MoreNotifications", "opc:Boolean", none), ("NotificationMessage", "tns:NotificationMessage", none), ("NoOfResults", "opc:Int32", none), ("Results", "ua:StatusCode", some "NoOfResults"), ("NoOfDiagnosticInfos", "opc:Int32", none), ("DiagnosticInfos", "ua:DiagnosticInfo", some "NoOfDiagnosticInfos")]⟩,
  ⟨"RepublishRequest", [("RequestHeader", "tns:RequestHeader", none), ("SubscriptionId", "opc:UInt32", none), ("RetransmitSequenceNumber", "opc:UInt32", none)]⟩,
  ⟨"RepublishResponse", [("ResponseHeader", "tns:ResponseHeader", none), ("NotificationMessage", "tns:NotificationMessage", none)]⟩,
  ⟨"TransferResult", [("StatusCode", "ua:StatusCode", none), ("NoOfAvailableSequenceNumbers", "opc:Int32", none), ("AvailableSequenceNumbers", "opc:UInt32", some "NoOfAvailableSequenceNumbers")]⟩,
  ⟨"TransferSubscriptionsRequest", [("RequestHeader", "tns:RequestHeader", none), ("NoOfSubscriptionIds", "opc:Int32", none), ("SubscriptionIds", "opc:UInt32", some "NoOfSubscriptionIds"), ("SendInitialValues", "opc:Boolean", none)]⟩,
  ⟨"TransferSubscriptionsResponse", [("ResponseHeader", "tns:ResponseHeader", none), ("NoOfResults", "opc:Int32", none), ("Results", "tns:TransferResult", some "NoOfResults"), ("NoOfDiagnosticInfos", "opc:Int32", none), ("DiagnosticInfos", "ua:DiagnosticInfo", some "NoOfDiagnosticInfos")]⟩,
  ⟨"DeleteSubscriptionsRequest", [("RequestHeader", "tns:RequestHeader", none), ("NoOfSubscriptionIds", "opc:Int32", none), ("SubscriptionIds", "opc:UInt32", some "NoOfSubscriptionIds")]⟩,
  ⟨"DeleteSubscriptionsResponse", [("ResponseHeader", "tns:ResponseHeader", none), ("NoOfResults", "opc:Int32", none), ("Results", "ua:StatusCode", some "NoOfResults"), ("NoOfDiagnosticInfos", "opc:Int32", none), ("DiagnosticInfos", "ua:DiagnosticInfo", some "NoOfDiagnosticInfos")]⟩,
  ⟨"BuildInfo", [("ProductUri", "opc:String", none), ("ManufacturerName", "opc:String", none), ("ProductName", "opc:String", none), ("SoftwareVersion", "opc:String", none), ("BuildNumber", "opc:String", none), ("BuildDate", "opc:DateTime", none)]⟩,
  ⟨"RedundantServerDataType", [("ServerId", "opc:String", none), ("ServiceLevel", "opc:Byte", none), ("ServerState", "tns:ServerState", none)]⟩,
  ⟨"EndpointUrlListDataType", [("NoOfEndpointUrlList", "opc:Int32", none), ("EndpointUrlList", "opc:String", some "NoOfEndpointUrlList")]⟩,
  ⟨"NetworkGroupDataType", [("ServerUri", "opc:String", none), ("NoOfNetworkPaths", "opc:Int32", none), ("NetworkPaths", "tns:EndpointUrlListDataType", some "NoOfNetworkPaths")]⟩,
  ⟨"SamplingIntervalDiagnosticsDataType", [("SamplingInterval", "opc:Double", none), ("MonitoredItemCount", "opc:UInt32", none), ("MaxMonitoredItemCount", "opc:UInt32", none), ("DisabledMonitoredItemCount", "opc:UInt32", none)]⟩,
  ⟨"ServerDiagnosticsSummaryDataType", [("ServerViewCount", "opc:UInt32", none), ("CurrentSessionCount", "opc:UInt32", none), ("CumulatedSessionCount", "opc:UInt32", none), ("SecurityRejectedSessionCount", "opc:UInt32", none), ("RejectedSessionCount", "opc:UInt32", none), ("SessionTimeoutCount", "opc:UInt32", none), ("SessionAbortCount", "opc:UInt32", none), ("CurrentSubscriptionCount", "opc:UInt32", none), ("CumulatedSubscriptionCount", "opc:UInt32", none), ("PublishingIntervalCount", "opc:UInt32", none), ("SecurityRejectedRequestsCount", "opc:UInt32", none), ("RejectedRequestsCount", "opc:UInt32", none)]⟩,
  ⟨"ServerStatusDataType", [("StartTime", "opc:DateTime", none), ("CurrentTime", "opc:DateTime", none), ("State", "tns:ServerState", none), ("BuildInfo", "tns:BuildInfo", none), ("SecondsTillShutdown", "opc:UInt32", none), ("ShutdownReason", "ua:LocalizedText", none)]⟩,
  ⟨"SessionDiagnosticsDataType", [("SessionId", "ua:NodeId", none), ("SessionName", "opc:String", none), ("ClientDescription", "tns:ApplicationDescription", none), ("ServerUri", "opc:String", none), ("EndpointUrl", "opc:String", none), ("NoOfLocaleIds", "opc:Int32", none), ("LocaleIds", "opc:String", some "NoOfLocaleIds"), ("ActualSessionTimeout", "opc:Double", none), ("MaxResponseMessageSize", "opc:UInt32", none), ("ClientConnectionTime", "opc:DateTime", none), ("ClientLastContactTime", "opc:DateTime", none), ("CurrentSubscriptionsCount", "opc:UInt32", none), ("CurrentMonitoredItemsCount", "opc:UInt32", none), ("CurrentPublishRequestsInQueue", "opc:UInt32", none), ("TotalRequestCount", "tns:ServiceCounterDataType", none), ("UnauthorizedRequestCount", "opc:UInt32", none), ("ReadCount", "tns:ServiceCounterDataType", none), ("HistoryReadCount", "tns:ServiceCounterDataType", none), ("WriteCount", "tns:ServiceCounterDataType", none), ("HistoryUpdateCount", "tns:ServiceCounterDataType", none), ("CallCount", "tns:ServiceCounterDataType", none), ("CreateMonitoredItemsCount", "tns:ServiceCounterDataType", none), ("ModifyMonitoredItemsCount", "tns:ServiceCounterDataType", none), ("SetMonitoringModeCount", "tns:ServiceCounterDataType", none), ("SetTriggeringCount", "tns:ServiceCounterDataType", none), ("DeleteMonitoredItemsCount", "tns:ServiceCounterDataType", none), ("CreateSubscriptionCount", "tns:ServiceCounterDataType", none), ("ModifySubscriptionCount", "tns:ServiceCounterDataType", none), ("SetPublishingModeCount", "tns:ServiceCounterDataType", none), ("PublishCount", "tns:ServiceCounterDataType", none), ("RepublishCount", "tns:ServiceCounterDataType", none), ("TransferSubscriptionsCount", "tns:ServiceCounterDataType", none), ("DeleteSubscriptionsCount", "tns:ServiceCounterDataType", none), ("AddNodesCount", "tns:ServiceCounterDataType", none), ("AddReferencesCount", "tns:ServiceCounterDataType", none), ("DeleteNodesCount", "tns:ServiceCounterDataType", none), ("DeleteReferencesCount", "tns:ServiceCounterDataType", none), ("BrowseCount", "tns:ServiceCounterDataType", none), ("BrowseNextCount", "tns:ServiceCounterDataType", none), ("TranslateBrowsePathsToNodeIdsCount", "tns:ServiceCounterDataType", none), ("QueryFirstCount", "tns:ServiceCounterDataType", none), ("QueryNextCount", "tns:ServiceCounterDataType", none), ("RegisterNodesCount", "tns:ServiceCounterDataType", none), ("UnregisterNodesCount", "tns:ServiceCounterDataType", none)]⟩,
  ⟨"SessionSecurityDiagnosticsDataType", [("SessionId", "ua:NodeId", none), ("ClientUserIdOfSession", "opc:String", none), ("NoOfClientUserIdHistory", "opc:Int32", none), ("ClientUserIdHistory", "opc:String", some "NoOfClientUserIdHistory"), ("AuthenticationMechanism", "opc:String", none), ("Encoding", "opc:String", none), ("TransportProtocol", "opc:String", none), ("SecurityMode", "tns:MessageSecurityMode", none), ("SecurityPolicyUri", "opc:String", none), ("ClientCertificate", "opc:ByteString", none)]⟩,
  ⟨"ServiceCounterDataType", [("TotalCount", "opc:UInt32", none), ("ErrorCount", "opc:UInt32", none)]⟩,
  ⟨"StatusResult", [("StatusCode", "ua:StatusCode", none), ("DiagnosticInfo", "ua:DiagnosticInfo", none)]⟩,
  ⟨"SubscriptionDiagnosticsDataType", [("SessionId", "ua:NodeId", none), ("SubscriptionId", "opc:UInt32", none), ("Priority", "opc:Byte", none), ("PublishingInterval", "opc:Double", none), ("MaxKeepAliveCount", "opc:UInt32", none), ("MaxLifetimeCount", "opc:UInt32", none), ("MaxNotificationsPerPublish", "opc:UInt32", none), ("PublishingEnabled", "opc:Boolean", none), ("ModifyCount", "opc:UInt32", none), ("EnableCount", "opc:UInt32", none), ("DisableCount", "opc:UInt32", none), ("RepublishRequestCount", "opc:UInt32", none), ("RepublishMessageRequestCount", "opc:UInt32", none), ("RepublishMessageCount", "opc:UInt32", none), ("TransferRequestCount", "opc:UInt32", none), ("TransferredToAltClientCount", "opc:UInt32", none), ("TransferredToSameClientCount", "opc:UInt32", none), ("PublishRequestCount", "opc:UInt32", none), ("DataChangeNotificationsCount", "opc:UInt32", none), ("EventNotificationsCount", "opc:UInt32", none), ("NotificationsCount", "opc:UInt32", none), ("LatePublishRequestCount", "opc:UInt32", none), ("CurrentKeepAliveCount", "opc:UInt32", none), ("CurrentLifetimeCount", "opc:UInt32", none), ("UnacknowledgedMessageCount", "opc:UInt32", none), ("DiscardedMessageCount", "opc:UInt32", none), ("MonitoredItemCount", "opc:UInt32", none), ("DisabledMonitoredItemCount", "opc:UInt32", none), ("MonitoringQueueOverflowCount", "opc:UInt32", none), ("NextSequenceNumber", "opc:UInt32", none), ("EventQueueOverFlowCount", "opc:UInt32", none)]⟩,
  ⟨"ModelChangeStructureDataType", [("Affected", "ua:NodeId", none), ("AffectedType", "ua:NodeId", none), ("Verb", "opc:Byte", none)]⟩,
  ⟨"SemanticChangeStructureDataType", [("Affected", "ua:NodeId", none), ("AffectedType", "ua:NodeId", none)]⟩,
  ⟨"Range", [("Low", "opc:Double", none), ("High", "opc:Double", none)]⟩,
  ⟨"EUInformation", [("NamespaceUri", "opc:String", none), ("UnitId", "opc:Int32", none), ("DisplayName", "ua:LocalizedText", none), ("Description", "ua:LocalizedText", none)]⟩,
  ⟨"ComplexNumberType", [("Real", "opc:Float", none), ("Imaginary", "opc:Float", none)]⟩,
  ⟨"DoubleComplexNumberType", [("Real", "opc:Double", none), ("Imaginary", "opc:Double", none)]⟩,
  ⟨"AxisInformation", [("EngineeringUnits", "tns:EUInformation", none), ("EURange", "tns:Range", none), ("Title", "ua:LocalizedText", none), ("AxisScaleType", "tns:AxisScaleEnumeration", none), ("NoOfAxisSteps", "opc:Int32", none), ("AxisSteps", "opc:Double", some "NoOfAxisSteps")]⟩,
  ⟨"XVType", [("X", "opc:Double", none), ("Value", "opc:Float", none)]⟩,
  ⟨"ProgramDiagnosticDataType", [("CreateSessionId", "ua:NodeId", none), ("CreateClientName", "opc:String", none), ("InvocationCreationTime", "opc:DateTime", none), ("LastTransitionTime", "opc:DateTime", none), ("LastMethodCall", "opc:String", none), ("LastMethodSessionId", "ua:NodeId", none), ("NoOfLastMethodInputArguments", "opc:Int32", none), ("LastMethodInputArguments", "tns:Argument", some "NoOfLastMethodInputArguments"), ("NoOfLastMethodOutputArguments", "opc:Int32", none), ("LastMethodOutputArguments", "tns:Argument", some "NoOfLastMethodOutputArguments"), ("LastMethodCallTime", "opc:DateTime", none), ("LastMethodReturnStatus", "tns:StatusResult", none)]⟩,
  ⟨"ProgramDiagnostic2DataType", [("CreateSessionId", "ua:NodeId", none), ("CreateClientName", "opc:String", none), ("InvocationCreationTime", "opc:DateTime", none), ("LastTransitionTime", "opc:DateTime", none), ("LastMethodCall", "opc:String", none), ("LastMethodSessionId", "ua:NodeId", none), ("NoOfLastMethodInputArguments", "opc:Int32", none), ("LastMethodInputArguments", "tns:Argument", some "NoOfLastMethodInputArguments"), ("NoOfLastMethodOutputArguments", "opc:Int32", none), ("LastMethodOutputArguments", "tns:Argument", some "NoOfLastMethodOutputArguments"), ("NoOfLastMethodInputValues", "opc:Int32", none), ("LastMethodInputValues", "ua:Variant", some "NoOfLastMethodInputValues"), ("NoOfLastMethodOutputValues", "opc:Int32", none), ("LastMethodOutputValues", "ua:Variant", some "NoOfLastMethodOutputValues"), ("LastMethodCallTime", "opc:DateTime", none), ("LastMethodReturnStatus", "tns:StatusResult", none)]⟩,
  ⟨"Annotation", [("Message", "opc:String", none), ("UserName", "opc:String", none), ("AnnotationTime", "opc:DateTime", none)]⟩]

def types : List StructuredType := types0 ++ types1 ++ types2 ++ types3 ++ types4 ++ types5 ++ types6 ++ types7

/-- The objects "Default Binary" of server/nodeset_1_04.xml: the browse name of the data type they
encode and their number in namespace 0. -/
def encodings : List (String × Nat) := [
  ("Union", 12766), ("KeyValuePair", 14846), ("AdditionalParametersType", 17537), ("EphemeralKeyType", 17549),
  ("EndpointType", 15671), ("RationalNumber", 18815), ("Vector", 18816), ("3DVector", 18817),
  ("CartesianCoordinates", 18818), ("3DCartesianCoordinates", 18819), ("Orientation", 18820), ("3DOrientation", 18821),
  ("Frame", 18822), ("3DFrame", 18823), ("IdentityMappingRuleType", 15736), ("CurrencyUnitType", 23507),
  ("TrustListDataType", 12680), ("DataTypeSchemaHeader", 15676), ("DataTypeDescription", 125), ("StructureDescription", 126),
  ("EnumDescription", 127), ("SimpleTypeDescription", 15421), ("UABinaryFileDataType", 15422), ("DataSetMetaDataType", 124),
  ("FieldMetaData", 14839), ("ConfigurationVersionDataType", 14847), ("PublishedDataSetDataType", 15677), ("PublishedDataSetSourceDataType", 15678),
  ("PublishedVariableDataType", 14323), ("PublishedDataItemsDataType", 15679), ("PublishedEventsDataType", 15681), ("DataSetWriterDataType", 15682),
  ("DataSetWriterTransportDataType", 15683), ("DataSetWriterMessageDataType", 15688), ("PubSubGroupDataType", 15689), ("WriterGroupDataType", 21150),
  ("WriterGroupTransportDataType", 15691), ("WriterGroupMessageDataType", 15693), ("PubSubConnectionDataType", 15694), ("ConnectionTransportDataType", 15695),
  ("NetworkAddressDataType", 21151), ("NetworkAddressUrlDataType", 21152), ("ReaderGroupDataType", 21153), ("ReaderGroupTransportDataType", 15701),
  ("ReaderGroupMessageDataType", 15702), ("DataSetReaderDataType", 15703), ("DataSetReaderTransportDataType", 15705), ("DataSetReaderMessageDataType", 15706),
  ("SubscribedDataSetDataType", 15707), ("TargetVariablesDataType", 15712), ("FieldTargetDataType", 14848), ("SubscribedDataSetMirrorDataType", 15713),
  ("PubSubConfigurationDataType", 21154), ("UadpWriterGroupMessageDataType", 15715), ("UadpDataSetWriterMessageDataType", 15717), ("UadpDataSetReaderMessageDataType", 15718),
  ("JsonWriterGroupMessageDataType", 15719), ("JsonDataSetWriterMessageDataType", 15724), ("JsonDataSetReaderMessageDataType", 15725), ("DatagramConnectionTransportDataType", 17468),
  ("DatagramWriterGroupTransportDataType", 21155), ("BrokerConnectionTransportDataType", 15479), ("BrokerWriterGroupTransportDataType", 15727), ("BrokerDataSetWriterTransportDataType", 15729),
  ("BrokerDataSetReaderTransportDataType", 15733), ("AliasNameDataType", 23499), ("UnsignedRationalNumber", 24110), ("RolePermissionType", 128),
  ("DataTypeDefinition", 121), ("StructureField", 14844), ("StructureDefinition", 122), ("EnumDefinition", 123),
  ("Argument", 298), ("EnumValueType", 8251), ("EnumField", 14845), ("OptionSet", 12765),
  ("TimeZoneDataType", 8917), ("ApplicationDescription", 310), ("ServerOnNetwork", 12207), ("UserTokenPolicy", 306),
  ("EndpointDescription", 314), ("RegisteredServer", 434), ("DiscoveryConfiguration", 12900), ("MdnsDiscoveryConfiguration", 12901),
  ("SignedSoftwareCertificate", 346), ("UserIdentityToken", 318), ("AnonymousIdentityToken", 321), ("UserNameIdentityToken", 324),
  ("X509IdentityToken", 327), ("IssuedIdentityToken", 940), ("AddNodesItem", 378), ("AddReferencesItem", 381),
  ("DeleteNodesItem", 384), ("DeleteReferencesItem", 387), ("RelativePathElement", 539), ("RelativePath", 542),
  ("EndpointConfiguration", 333), ("ContentFilterElement", 585), ("ContentFilter", 588), ("FilterOperand", 591),
  ("ElementOperand", 594), ("LiteralOperand", 597), ("AttributeOperand", 600), ("SimpleAttributeOperand", 603),
  ("HistoryEvent", 661), ("MonitoringFilter", 721), ("EventFilter", 727), ("AggregateConfiguration", 950),
  ("HistoryEventFieldList", 922), ("BuildInfo", 340), ("RedundantServerDataType", 855), ("EndpointUrlListDataType", 11957),
  ("NetworkGroupDataType", 11958), ("SamplingIntervalDiagnosticsDataType", 858), ("ServerDiagnosticsSummaryDataType", 861), ("ServerStatusDataType", 864),
  ("SessionDiagnosticsDataType", 867), ("SessionSecurityDiagnosticsDataType", 870), ("ServiceCounterDataType", 873), ("StatusResult", 301),
  ("SubscriptionDiagnosticsDataType", 876), ("ModelChangeStructureDataType", 879), ("SemanticChangeStructureDataType", 899), ("Range", 886),
  ("EUInformation", 889), ("ComplexNumberType", 12181), ("DoubleComplexNumberType", 12182), ("AxisInformation", 12089),
  ("XVType", 12090), ("ProgramDiagnosticDataType", 896), ("ProgramDiagnostic2DataType", 24034), ("Annotation", 893)]

end Opcua.Schema
