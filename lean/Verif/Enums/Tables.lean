import Verif.Enums.Base
/-
Tables transcribed mechanically from `src/autosar/xml/enumeration.py`.
-/
namespace Verif.Enums

/-- The `Enum` classes (enumeration.py 13-697): class name, members with values. -/
def enumMembers : List (String × List (String × Nat)) := [
  -- lines 13-20
  ("ArgumentDirection", [("IN", 0), ("INOUT", 1), ("OUT", 2)]),
  -- lines 23-29
  ("ArrayImplPolicy", [("PAYLOAD_AS_ARRAY", 0), ("PAYLOAD_AS_POINTER_TO_ARRAY", 1)]),
  -- lines 32-39
  ("ArraySizeHandling", [("ALL_INDICES_DIFFERENT_ARRAY_SIZE", 0), ("ALL_INDICES_SAME_ARRAY_SIZE", 1), ("INHERITED_FROM_ARRAY_ELEMENT_TYPE_SIZE", 2)]),
  -- lines 42-48
  ("ArraySizeSemantics", [("FIXED_SIZE", 0), ("VARIABLE_SIZE", 1)]),
  -- lines 51-62
  ("ByteOrder", [("BIG_ENDIAN", 0), ("LITTLE_ENDIAN", 1), ("OPAQUE", 2)]),
  -- lines 65-78
  ("CalibrationAxisCategory", [("COM_AXIS", 0), ("CURVE_AXIS", 1), ("FIX_AXIS", 2), ("RES_AXIS", 3), ("STD_AXIS", 4)]),
  -- lines 81-88
  ("CallPoint", [("ASYNC", 0), ("SYNC", 1)]),
  -- lines 91-99
  ("CompuScaleContent", [("NONE", 0), ("CONSTANT", 1), ("RATIONAL", 2)]),
  -- lines 102-114
  ("DataFilterType", [("ALWAYS", 0), ("MASKED_NEW_DIFFERS_MASKED_OLD", 1), ("MASKED_NEW_DIFFERS_X", 2), ("MASKED_NEW_EQUALS_X", 3), ("NEVER", 4), ("NEW_IS_OUTSIDE", 5), ("NEW_IS_WITHIN", 6), ("ONE_EVERY_N", 7)]),
  -- lines 117-123
  ("DataTransformationErrorHandling", [("NO_TRANSFORMER_ERROR_HANDLING", 0), ("TRANSFORMER_ERROR_HANDLING", 1)]),
  -- lines 126-132
  ("DataTransformationStatusForwarding", [("NO_TRANSFORMER_STATUS_FORWARDING", 0), ("TRANSFORMER_STATUS_FORWARDING", 1)]),
  -- lines 135-139
  ("DisplayPresentation", [("CONTINUOUS", 0), ("DISCRETE", 1)]),
  -- lines 142-150
  ("EmphasisType", [("BOLD", 0), ("BOLDITALIC", 1), ("ITALIC", 2), ("PLAIN", 3)]),
  -- lines 153-159
  ("EmphasisFont", [("DEFAULT", 0), ("MONO", 1)]),
  -- lines 162-168
  ("Float", [("FLOAT", 0), ("NO_FLOAT", 1)]),
  -- lines 171-179
  ("HandleInvalid", [("DONT_INVALIDATE", 0), ("EXTERNAL_REPLACEMENT", 1), ("KEEP", 2), ("REPLACE", 3)]),
  -- lines 182-192
  ("HandleOutOfRange", [("DEFAULT", 0), ("EXTERNAL_REPLACEMENT", 1), ("IGNORE", 2), ("INVALID", 3), ("NONE", 4), ("SATURATE", 5)]),
  -- lines 195-201
  ("HandleOutOfRangeStatus", [("INDICATE", 0), ("SILENT", 1)]),
  -- lines 204-211
  ("HandleTimeout", [("NONE", 0), ("REPLACE", 1), ("REPLACE_BY_TIMEOUT_SUBSTITUTION_VALUE", 2)]),
  -- lines 214-296
  ("IdentifiableSubTypes", [("ABSTRACT_IMPLEMENTATION_DATA_TYPE", 0), ("ABSTRACT_IMPLEMENTATION_DATA_TYPE_ELEMENT", 1), ("ABSTRACT_PROVIDED_PORT_PROTOTYPE", 2), ("ABSTRACT_REQUIRED_PORT_PROTOTYPE", 3), ("APPLICATION_ARRAY_DATA_TYPE", 4), ("APPLICATION_ARRAY_ELEMENT", 5), ("APPLICATION_COMPOSITE_DATA_TYPE", 6), ("APPLICATION_COMPOSITE_ELEMENT_DATA_PROTOTYPE", 7), ("APPLICATION_DATA_TYPE", 8), ("APPLICATION_DEFERRED_DATA_TYPE", 9), ("APPLICATION_ERROR", 10), ("APPLICATION_PRIMITIVE_DATA_TYPE", 11), ("APPLICATION_RECORD_DATA_TYPE", 12), ("APPLICATION_RECORD_ELEMENT", 13), ("APPLICATION_SW_COMPONENT_TYPE", 14), ("AR_PACKAGE", 15), ("ARGUMENT_DATA_PROTOTYPE", 16), ("ASYNCHRONOUS_SERVER_CALL_POINT", 17), ("ASYNCHRONOUS_SERVER_CALL_RESULT_POINT", 18), ("ASYNCHRONOUS_SERVER_CALL_RETURNS_EVENT", 19), ("AUTOSAR_DATA_PROTOTYPE", 20), ("AUTOSAR_DATA_TYPE", 21), ("BACKGROUND_EVENT", 22), ("BSW_MODULE_ENTRY", 23), ("CLIENT_SERVER_INTERFACE", 24), ("CLIENT_SERVER_OPERATION", 25), ("COMPOSITION_SW_COMPONENT_TYPE", 26), ("COMPU_METHOD", 27), ("CONSTANT_SPECIFICATION", 28), ("DATA_CONSTR", 29), ("DATA_PROTOTYPE", 30), ("DATA_RECEIVE_ERROR_EVENT", 31), ("DATA_RECEIVED_EVENT", 32), ("DATA_SEND_COMPLETED_EVENT", 33), ("DATA_TYPE_MAPPING_SET", 34), ("DATA_WRITE_COMPLETED_EVENT", 35), ("E2E_PROFILE_COMPATIBILITY_PROPS", 36), ("EXCLUSIVE_AREA", 37), ("EXCLUSIVE_AREA_NESTING_ORDER", 38), ("EXTERNAL_TRIGGER_OCCURRED_EVENT", 39), ("IMPLEMENTATION_DATA_TYPE", 40), ("IMPLEMENTATION_DATA_TYPE_ELEMENT", 41), ("INIT_EVENT", 42), ("INTERNAL_TRIGGER_OCCURRED_EVENT", 43), ("INTERNAL_TRIGGERING_POINT", 44), ("MODE_DECLARATION", 45), ("MODE_DECLARATION_GROUP", 46), ("MODE_DECLARATION_GROUP_PROTOTYPE", 47), ("MODE_SWITCH_INTERFACE", 48), ("MODE_SWITCH_POINT", 49), ("MODE_SWITCHED_ACK_EVENT", 50), ("NV_DATA_INTERFACE", 51), ("OPERATION_INVOKED_EVENT", 52), ("P_PORT_PROTOTYPE", 53), ("PARAMETER_DATA_PROTOTYPE", 54), ("PARAMETER_INTERFACE", 55), ("PHYSICAL_DIMENSION", 56), ("PORT_PROTOTYPE", 57), ("PR_PORT_PROTOTYPE", 58), ("R_PORT_PROTOTYPE", 59), ("RUNNABLE_ENTITY", 60), ("SENDER_RECEIVER_INTERFACE", 61), ("SW_ADDR_METHOD", 62), ("SW_BASE_TYPE", 63), ("SW_COMPONENT_PROTOTYPE", 64), ("SWC_IMPLEMENTATION", 65), ("SWC_INTERNAL_BEHAVIOR", 66), ("SWC_MODE_MANAGER_ERROR_EVENT", 67), ("SWC_MODE_SWITCH_EVENT", 68), ("TIMING_EVENT", 69), ("TRANSFORMER_HARD_ERROR_EVENT", 70), ("TRIGGER", 71), ("UNIT", 72), ("VARIABLE_ACCESS", 73), ("VARIABLE_DATA_PROTOTYPE", 74)]),
  -- lines 299-307
  ("IntervalType", [("CLOSED", 0), ("OPEN", 1)]),
  -- lines 310-316
  ("KeepWithPrevious", [("KEEP", 0), ("NO_KEEP", 1)]),
  -- lines 319-460
  ("Language", [("AA", 0), ("AB", 1), ("AF", 2), ("AM", 3), ("AR", 4), ("AS", 5), ("AY", 6), ("AZ", 7), ("BA", 8), ("BE", 9), ("BG", 10), ("BH", 11), ("BI", 12), ("BN", 13), ("BO", 14), ("BR", 15), ("CA", 16), ("CO", 17), ("CS", 18), ("CY", 19), ("DA", 20), ("DE", 21), ("DZ", 22), ("EL", 23), ("EN", 24), ("EO", 25), ("ES", 26), ("ET", 27), ("EU", 28), ("FA", 29), ("FI", 30), ("FJ", 31), ("FO", 32), ("FOR_ALL", 33), ("FR", 34), ("FY", 35), ("GA", 36), ("GD", 37), ("GL", 38), ("GN", 39), ("GU", 40), ("HA", 41), ("HI", 42), ("HR", 43), ("HU", 44), ("HY", 45), ("IA", 46), ("IE", 47), ("IK", 48), ("IN", 49), ("IS", 50), ("IT", 51), ("IW", 52), ("JA", 53), ("JI", 54), ("JW", 55), ("KA", 56), ("KK", 57), ("KL", 58), ("KM", 59), ("KN", 60), ("KO", 61), ("KS", 62), ("KU", 63), ("KY", 64), ("LA", 65), ("LN", 66), ("LO", 67), ("LT", 68), ("LV", 69), ("MG", 70), ("MI", 71), ("MK", 72), ("ML", 73), ("MN", 74), ("MO", 75), ("MR", 76), ("MS", 77), ("MT", 78), ("MY", 79), ("NA", 80), ("NE", 81), ("NL", 82), ("NO", 83), ("OC", 84), ("OM", 85), ("OR", 86), ("PA", 87), ("PL", 88), ("PS", 89), ("PT", 90), ("QU", 91), ("RM", 92), ("RN", 93), ("RO", 94), ("RU", 95), ("RW", 96), ("SA", 97), ("SD", 98), ("SG", 99), ("SH", 100), ("SI", 101), ("SK", 102), ("SL", 103), ("SM", 104), ("SN", 105), ("SO", 106), ("SQ", 107), ("SR", 108), ("SS", 109), ("ST", 110), ("SU", 111), ("SV", 112), ("SW", 113), ("TA", 114), ("TE", 115), ("TG", 116), ("TH", 117), ("TI", 118), ("TK", 119), ("TL", 120), ("TN", 121), ("TO", 122), ("TR", 123), ("TS", 124), ("TT", 125), ("TW", 126), ("UK", 127), ("UR", 128), ("UZ", 129), ("VI", 130), ("VO", 131), ("WO", 132), ("XH", 133), ("YO", 134), ("ZH", 135), ("ZU", 136)]),
  -- lines 463-469
  ("ModeAccess", [("ACCESS", 0), ("SWITCH", 1)]),
  -- lines 472-479
  ("ModeActivationKind", [("ON_ENTRY", 0), ("ON_EXIT", 1), ("ON_TRANSITION", 2)]),
  -- lines 482-488
  ("ModeErrorReactionPolicy", [("DEFAULT_MODE", 0), ("LAST_MODE", 1)]),
  -- lines 491-502
  ("Monotony", [("DECREASING", 0), ("INCREASING", 1), ("MONOTONOUS", 2), ("NO_MONOTONY", 3), ("STRICTLY_DECREASING", 4), ("STRICTLY_INCREASING", 5), ("STRICT_MONOTONOUS", 6)]),
  -- lines 505-519
  ("PackageRole", [("APPLICATION_DATA_TYPE", 0), ("BASE_TYPE", 1), ("COMPONENT_TYPE", 2), ("COMPU_METHOD", 3), ("DATA_CONSTRAINT", 4), ("IMPLEMENTATION_DATA_TYPE", 5), ("MODE_DECLARATION", 6), ("PORT_INTERFACE", 7), ("UNIT", 8), ("CONSTANT", 9)]),
  -- lines 522-528
  ("PageBreak", [("BREAK", 0), ("NO_BREAK", 1)]),
  -- lines 531-537
  ("PageWide", [("NO_PGWIDE", 0), ("PGWIDE", 1)]),
  -- lines 540-546
  ("PortAccess", [("EXPLICIT", 0), ("IMPLICIT", 1)]),
  -- lines 549-556
  ("ReadResult", [("BY_ARGUMENT", 0), ("BY_VALUE", 1)]),
  -- lines 559-566
  ("ReentrancyLevel", [("MULTICORE_REENTRANT", 0), ("NON_REENTRANT", 1), ("SINGLE_CORE_REENTRANT", 2)]),
  -- lines 569-575
  ("RteApiReturnValueProvision", [("RETURN_VALUE_PROVIDED", 0), ("NO_RETURN_VALUE_PROVIDED", 1)]),
  -- lines 578-586
  ("ScaleConstraintValidity", [("NOT_AVAILABLE", 0), ("NOT_DEFINED", 1), ("NOT_VALID", 2), ("VALID", 3)]),
  -- lines 589-596
  ("ServerArgImplPolicy", [("USE_ARGUMENT_TYPE", 0), ("USE_ARRAY_BASED_TYPE", 1), ("USE_VOID", 2)]),
  -- lines 599-628
  ("ServiceKind", [("ANY_STANDARDIZED", 0), ("BASIC_SOFTWARE_MODE_MANAGER", 1), ("COM_MANAGER", 2), ("CRYPTO_KEY_MANAGEMENT", 23), ("CRYPTO_SERVICE_MANAGER", 3), ("DEFAULT_ERROR_TRACER", 4), ("DEVELOPMENT_ERROR_TRACER", 5), ("DIAGNOSTIC_COMMUNICATION_MANAGER", 6), ("DIAGNOSTIC_EVENT_MANAGER", 7), ("DIAGNOSTIC_LOG_AND_TRACE", 8), ("ECU_MANAGER", 9), ("ERROR_TRACER", 18), ("FUNCTION_INHIBITION_MANAGER", 10), ("HARDWARE_TEST_MANAGER", 19), ("INTRUSION_DETECTION_SECURITY_MANAGEMENT", 24), ("J1939_DCM", 22), ("J1939_REQUEST_MANAGER", 11), ("NON_VOLATILE_RAM_MANAGER", 12), ("OPERATING_SYSTEM", 13), ("SECURE_ON_BOARD_COMMUNICATION", 14), ("SYNC_BASE_TIME_MANAGER", 15), ("V2X_FACILITIES", 20), ("V2X_MANAGEMENT", 21), ("VENDOR_SPECIFIC", 16), ("WATCH_DOG_MANAGER", 17)]),
  -- lines 631-637
  ("SupportBufferLocking", [("DOES_NOT_SUPPORT_BUFFER_LOCKING", 0), ("SUPPORTS_BUFFER_LOCKING", 1)]),
  -- lines 640-647
  ("SwCalibrationAccess", [("NOT_ACCESSIBLE", 0), ("READ_ONLY", 1), ("READ_WRITE", 2)]),
  -- lines 650-659
  ("SwImplPolicy", [("CONST", 0), ("FIXED", 1), ("MEASUREMENT_POINT", 2), ("QUEUED", 3), ("STANDARD", 4)]),
  -- lines 662-669
  ("TransmissionMode", [("CYCLIC", 0), ("CYCLIC_AND_ON_CHANGE", 1), ("TRIGGERED", 2)]),
  -- lines 672-683
  ("ValueFormat", [("DEFAULT", 0), ("DECIMAL", 1), ("HEXADECIMAL", 2), ("BINARY", 3), ("SCIENTIFIC", 4)]),
  -- lines 686-693
  ("VariableAccessScope", [("COMMUNICATION_INTER_ECU", 0), ("COMMUNICATION_INTRA_PARTITION", 1), ("INTER_PARTITION_INTRA_ECU", 2)])]

/-- `xml_to_enum_map` (enumeration.py 726-1118). -/
def xmlToEnumMap : List (String × List (String × XEntry)) := [
  ("ArgumentDirection", [
    ("IN", .plain ⟨"ArgumentDirection", "IN"⟩),
    ("INOUT", .plain ⟨"ArgumentDirection", "INOUT"⟩),
    ("OUT", .plain ⟨"ArgumentDirection", "OUT"⟩)]),
  ("ArrayImplPolicy", [
    ("PAYLOAD-AS-ARRAY", .versioned ⟨"ArrayImplPolicy", "PAYLOAD_AS_ARRAY"⟩ [49, 50, 51]),
    ("PAYLOAD-AS-POINTER-TO-ARRAY", .versioned ⟨"ArrayImplPolicy", "PAYLOAD_AS_POINTER_TO_ARRAY"⟩ [49, 50, 51])]),
  ("ArraySizeHandling", [
    ("ALL-INDICES-DIFFERENT-ARRAY-SIZE", .plain ⟨"ArraySizeHandling", "ALL_INDICES_DIFFERENT_ARRAY_SIZE"⟩),
    ("ALL-INDICES-SAME-ARRAY-SIZE", .plain ⟨"ArraySizeHandling", "ALL_INDICES_SAME_ARRAY_SIZE"⟩),
    ("INHERITED-FROM-ARRAY-ELEMENT-TYPE-SIZE", .plain ⟨"ArraySizeHandling", "INHERITED_FROM_ARRAY_ELEMENT_TYPE_SIZE"⟩)]),
  ("ArraySizeSemantics", [
    ("FIXED-SIZE", .plain ⟨"ArraySizeSemantics", "FIXED_SIZE"⟩),
    ("VARIABLE-SIZE", .plain ⟨"ArraySizeSemantics", "VARIABLE_SIZE"⟩)]),
  ("ByteOrder", [
    ("MOST-SIGNIFICANT-BYTE-FIRST", .plain ⟨"ByteOrder", "BIG_ENDIAN"⟩),
    ("MOST-SIGNIFICANT-BYTE-LAST", .plain ⟨"ByteOrder", "LITTLE_ENDIAN"⟩),
    ("OPAQUE", .plain ⟨"ByteOrder", "OPAQUE"⟩)]),
  ("CalibrationAxisCategory", [
    ("COM_AXIS", .plain ⟨"CalibrationAxisCategory", "COM_AXIS"⟩),
    ("COM-AXIS", .plain ⟨"CalibrationAxisCategory", "COM_AXIS"⟩),
    ("CURVE_AXIS", .plain ⟨"CalibrationAxisCategory", "CURVE_AXIS"⟩),
    ("CURVE-AXIS", .plain ⟨"CalibrationAxisCategory", "CURVE_AXIS"⟩),
    ("FIX_AXIS", .plain ⟨"CalibrationAxisCategory", "FIX_AXIS"⟩),
    ("FIX-AXIS", .plain ⟨"CalibrationAxisCategory", "FIX_AXIS"⟩),
    ("RES_AXIS", .plain ⟨"CalibrationAxisCategory", "RES_AXIS"⟩),
    ("RES-AXIS", .plain ⟨"CalibrationAxisCategory", "RES_AXIS"⟩),
    ("STD_AXIS", .plain ⟨"CalibrationAxisCategory", "STD_AXIS"⟩),
    ("STD-AXIS", .plain ⟨"CalibrationAxisCategory", "STD_AXIS"⟩)]),
  ("DataFilterType", [
    ("ALWAYS", .plain ⟨"DataFilterType", "ALWAYS"⟩),
    ("MASKED-NEW-DIFFERS-MASKED-OLD", .plain ⟨"DataFilterType", "MASKED_NEW_DIFFERS_MASKED_OLD"⟩),
    ("MASKED-NEW-DIFFERS-X", .plain ⟨"DataFilterType", "MASKED_NEW_DIFFERS_X"⟩),
    ("MASKED-NEW-EQUALS-X", .plain ⟨"DataFilterType", "MASKED_NEW_EQUALS_X"⟩),
    ("NEVER", .plain ⟨"DataFilterType", "NEVER"⟩),
    ("NEW-IS-OUTSIDE", .plain ⟨"DataFilterType", "NEW_IS_OUTSIDE"⟩),
    ("NEW-IS-WITHIN", .plain ⟨"DataFilterType", "NEW_IS_WITHIN"⟩),
    ("ONE-EVERY-N", .plain ⟨"DataFilterType", "ONE_EVERY_N"⟩)]),
  ("DataTransformationErrorHandling", [
    ("NO-TRANSFORMER-ERROR-HANDLING", .plain ⟨"DataTransformationErrorHandling", "NO_TRANSFORMER_ERROR_HANDLING"⟩),
    ("TRANSFORMER-ERROR-HANDLING", .plain ⟨"DataTransformationErrorHandling", "TRANSFORMER_ERROR_HANDLING"⟩)]),
  ("DataTransformationStatusForwarding", [
    ("NO-TRANSFORMER-STATUS-FORWARDING", .plain ⟨"DataTransformationStatusForwarding", "NO_TRANSFORMER_STATUS_FORWARDING"⟩),
    ("TRANSFORMER-STATUS-FORWARDING", .plain ⟨"DataTransformationStatusForwarding", "TRANSFORMER_STATUS_FORWARDING"⟩)]),
  ("DisplayPresentation", [
    ("PRESENTATION-CONTINUOUS", .plain ⟨"DisplayPresentation", "CONTINUOUS"⟩),
    ("PRESENTATION-DISCRETE", .plain ⟨"DisplayPresentation", "DISCRETE"⟩)]),
  ("EmphasisFont", [
    ("DEFAULT", .plain ⟨"EmphasisFont", "DEFAULT"⟩),
    ("MONO", .plain ⟨"EmphasisFont", "MONO"⟩)]),
  ("EmphasisType", [
    ("BOLD", .plain ⟨"EmphasisType", "BOLD"⟩),
    ("BOLDITALIC", .plain ⟨"EmphasisType", "BOLDITALIC"⟩),
    ("ITALIC", .plain ⟨"EmphasisType", "ITALIC"⟩),
    ("PLAIN", .plain ⟨"EmphasisType", "PLAIN"⟩)]),
  ("Float", [
    ("FLOAT", .plain ⟨"Float", "FLOAT"⟩),
    ("NO-FLOAT", .plain ⟨"Float", "NO_FLOAT"⟩)]),
  ("HandleInvalid", [
    ("DONT-INVALIDATE", .plain ⟨"HandleInvalid", "DONT_INVALIDATE"⟩),
    ("EXTERNAL-REPLACEMENT", .plain ⟨"HandleInvalid", "EXTERNAL_REPLACEMENT"⟩),
    ("KEEP", .plain ⟨"HandleInvalid", "KEEP"⟩),
    ("REPLACE", .plain ⟨"HandleInvalid", "REPLACE"⟩)]),
  ("HandleOutOfRange", [
    ("DEFAULT", .plain ⟨"HandleOutOfRange", "DEFAULT"⟩),
    ("EXTERNAL-REPLACEMENT", .plain ⟨"HandleOutOfRange", "EXTERNAL_REPLACEMENT"⟩),
    ("IGNORE", .plain ⟨"HandleOutOfRange", "IGNORE"⟩),
    ("INVALID", .plain ⟨"HandleOutOfRange", "INVALID"⟩),
    ("NONE", .plain ⟨"HandleOutOfRange", "NONE"⟩),
    ("SATURATE", .plain ⟨"HandleOutOfRange", "SATURATE"⟩)]),
  ("HandleOutOfRangeStatus", [
    ("INDICATE", .plain ⟨"HandleOutOfRangeStatus", "INDICATE"⟩),
    ("SILENT", .plain ⟨"HandleOutOfRangeStatus", "SILENT"⟩)]),
  ("HandleTimeout", [
    ("NONE", .plain ⟨"HandleTimeout", "NONE"⟩),
    ("REPLACE", .plain ⟨"HandleTimeout", "REPLACE"⟩),
    ("REPLACE-BY-TIMEOUT-SUBSTITUTION-VALUE", .plain ⟨"HandleTimeout", "REPLACE_BY_TIMEOUT_SUBSTITUTION_VALUE"⟩)]),
  ("IdentifiableSubTypes", [
    ("ABSTRACT-IMPLEMENTATION-DATA-TYPE", .plain ⟨"IdentifiableSubTypes", "ABSTRACT_IMPLEMENTATION_DATA_TYPE"⟩),
    ("ABSTRACT-IMPLEMENTATION-DATA-TYPE-ELEMENT", .plain ⟨"IdentifiableSubTypes", "ABSTRACT_IMPLEMENTATION_DATA_TYPE_ELEMENT"⟩),
    ("ABSTRACT-PROVIDED-PORT-PROTOTYPE", .plain ⟨"IdentifiableSubTypes", "ABSTRACT_PROVIDED_PORT_PROTOTYPE"⟩),
    ("ABSTRACT-REQUIRED-PORT-PROTOTYPE", .plain ⟨"IdentifiableSubTypes", "ABSTRACT_REQUIRED_PORT_PROTOTYPE"⟩),
    ("APPLICATION-ARRAY-DATA-TYPE", .plain ⟨"IdentifiableSubTypes", "APPLICATION_ARRAY_DATA_TYPE"⟩),
    ("APPLICATION-ARRAY-ELEMENT", .plain ⟨"IdentifiableSubTypes", "APPLICATION_ARRAY_ELEMENT"⟩),
    ("APPLICATION-COMPOSITE-DATA-TYPE", .plain ⟨"IdentifiableSubTypes", "APPLICATION_COMPOSITE_DATA_TYPE"⟩),
    ("APPLICATION-COMPOSITE-ELEMENT-DATA-PROTOTYPE", .plain ⟨"IdentifiableSubTypes", "APPLICATION_COMPOSITE_ELEMENT_DATA_PROTOTYPE"⟩),
    ("APPLICATION-DATA-TYPE", .plain ⟨"IdentifiableSubTypes", "APPLICATION_DATA_TYPE"⟩),
    ("APPLICATION-DEFERRED-DATA-TYPE", .plain ⟨"IdentifiableSubTypes", "APPLICATION_DEFERRED_DATA_TYPE"⟩),
    ("APPLICATION-ERROR", .plain ⟨"IdentifiableSubTypes", "APPLICATION_ERROR"⟩),
    ("APPLICATION-PRIMITIVE-DATA-TYPE", .plain ⟨"IdentifiableSubTypes", "APPLICATION_PRIMITIVE_DATA_TYPE"⟩),
    ("APPLICATION-RECORD-DATA-TYPE", .plain ⟨"IdentifiableSubTypes", "APPLICATION_RECORD_DATA_TYPE"⟩),
    ("APPLICATION-RECORD-ELEMENT", .plain ⟨"IdentifiableSubTypes", "APPLICATION_RECORD_ELEMENT"⟩),
    ("APPLICATION-SW-COMPONENT-TYPE", .plain ⟨"IdentifiableSubTypes", "APPLICATION_SW_COMPONENT_TYPE"⟩),
    ("AR-PACKAGE", .plain ⟨"IdentifiableSubTypes", "AR_PACKAGE"⟩),
    ("ARGUMENT-DATA-PROTOTYPE", .plain ⟨"IdentifiableSubTypes", "ARGUMENT_DATA_PROTOTYPE"⟩),
    ("ASYNCHRONOUS-SERVER-CALL-POINT", .plain ⟨"IdentifiableSubTypes", "ASYNCHRONOUS_SERVER_CALL_POINT"⟩),
    ("ASYNCHRONOUS-SERVER-CALL-RESULT-POINT", .plain ⟨"IdentifiableSubTypes", "ASYNCHRONOUS_SERVER_CALL_RESULT_POINT"⟩),
    ("ASYNCHRONOUS-SERVER-CALL-RETURNS-EVENT", .plain ⟨"IdentifiableSubTypes", "ASYNCHRONOUS_SERVER_CALL_RETURNS_EVENT"⟩),
    ("AUTOSAR-DATA-PROTOTYPE", .plain ⟨"IdentifiableSubTypes", "AUTOSAR_DATA_PROTOTYPE"⟩),
    ("AUTOSAR-DATA-TYPE", .plain ⟨"IdentifiableSubTypes", "AUTOSAR_DATA_TYPE"⟩),
    ("BACKGROUND-EVENT", .plain ⟨"IdentifiableSubTypes", "BACKGROUND_EVENT"⟩),
    ("BSW-MODULE-ENTRY", .plain ⟨"IdentifiableSubTypes", "BSW_MODULE_ENTRY"⟩),
    ("CLIENT-SERVER-INTERFACE", .plain ⟨"IdentifiableSubTypes", "CLIENT_SERVER_INTERFACE"⟩),
    ("CLIENT-SERVER-OPERATION", .plain ⟨"IdentifiableSubTypes", "CLIENT_SERVER_OPERATION"⟩),
    ("COMPOSITION-SW-COMPONENT-TYPE", .plain ⟨"IdentifiableSubTypes", "COMPOSITION_SW_COMPONENT_TYPE"⟩),
    ("COMPU-METHOD", .plain ⟨"IdentifiableSubTypes", "COMPU_METHOD"⟩),
    ("CONSTANT-SPECIFICATION", .plain ⟨"IdentifiableSubTypes", "CONSTANT_SPECIFICATION"⟩),
    ("DATA-CONSTR", .plain ⟨"IdentifiableSubTypes", "DATA_CONSTR"⟩),
    ("DATA-PROTOTYPE", .plain ⟨"IdentifiableSubTypes", "DATA_PROTOTYPE"⟩),
    ("DATA-RECEIVE-ERROR-EVENT", .plain ⟨"IdentifiableSubTypes", "DATA_RECEIVE_ERROR_EVENT"⟩),
    ("DATA-RECEIVED-EVENT", .plain ⟨"IdentifiableSubTypes", "DATA_RECEIVED_EVENT"⟩),
    ("DATA-SEND-COMPLETED-EVENT", .plain ⟨"IdentifiableSubTypes", "DATA_SEND_COMPLETED_EVENT"⟩),
    ("DATA-TYPE-MAPPING-SET", .plain ⟨"IdentifiableSubTypes", "DATA_TYPE_MAPPING_SET"⟩),
    ("DATA-WRITE-COMPLETED-EVENT", .plain ⟨"IdentifiableSubTypes", "DATA_WRITE_COMPLETED_EVENT"⟩),
    ("E-2-E-PROFILE-COMPATIBILITY-PROPS", .plain ⟨"IdentifiableSubTypes", "E2E_PROFILE_COMPATIBILITY_PROPS"⟩),
    ("EXCLUSIVE-AREA", .plain ⟨"IdentifiableSubTypes", "EXCLUSIVE_AREA"⟩),
    ("EXCLUSIVE-AREA-NESTING-ORDER", .plain ⟨"IdentifiableSubTypes", "EXCLUSIVE_AREA_NESTING_ORDER"⟩),
    ("EXTERNAL-TRIGGER-OCCURRED-EVENT", .plain ⟨"IdentifiableSubTypes", "EXTERNAL_TRIGGER_OCCURRED_EVENT"⟩),
    ("IMPLEMENTATION-DATA-TYPE", .plain ⟨"IdentifiableSubTypes", "IMPLEMENTATION_DATA_TYPE"⟩),
    ("IMPLEMENTATION-DATA-TYPE-ELEMENT", .plain ⟨"IdentifiableSubTypes", "IMPLEMENTATION_DATA_TYPE_ELEMENT"⟩),
    ("INIT-EVENT", .plain ⟨"IdentifiableSubTypes", "INIT_EVENT"⟩),
    ("INTERNAL-TRIGGER-OCCURRED-EVENT", .plain ⟨"IdentifiableSubTypes", "INTERNAL_TRIGGER_OCCURRED_EVENT"⟩),
    ("INTERNAL-TRIGGERING-POINT", .plain ⟨"IdentifiableSubTypes", "INTERNAL_TRIGGERING_POINT"⟩),
    ("MODE-DECLARATION", .plain ⟨"IdentifiableSubTypes", "MODE_DECLARATION"⟩),
    ("MODE-DECLARATION-GROUP", .plain ⟨"IdentifiableSubTypes", "MODE_DECLARATION_GROUP"⟩),
    ("MODE-DECLARATION-GROUP-PROTOTYPE", .plain ⟨"IdentifiableSubTypes", "MODE_DECLARATION_GROUP_PROTOTYPE"⟩),
    ("MODE-SWITCH-INTERFACE", .plain ⟨"IdentifiableSubTypes", "MODE_SWITCH_INTERFACE"⟩),
    ("MODE-SWITCH-POINT", .plain ⟨"IdentifiableSubTypes", "MODE_SWITCH_POINT"⟩),
    ("MODE-SWITCHED-ACK-EVENT", .plain ⟨"IdentifiableSubTypes", "MODE_SWITCHED_ACK_EVENT"⟩),
    ("NV-DATA-INTERFACE", .plain ⟨"IdentifiableSubTypes", "NV_DATA_INTERFACE"⟩),
    ("OPERATION-INVOKED-EVENT", .plain ⟨"IdentifiableSubTypes", "OPERATION_INVOKED_EVENT"⟩),
    ("P-PORT-PROTOTYPE", .plain ⟨"IdentifiableSubTypes", "P_PORT_PROTOTYPE"⟩),
    ("PARAMETER-DATA-PROTOTYPE", .plain ⟨"IdentifiableSubTypes", "PARAMETER_DATA_PROTOTYPE"⟩),
    ("PARAMETER-INTERFACE", .plain ⟨"IdentifiableSubTypes", "PARAMETER_INTERFACE"⟩),
    ("PHYSICAL-DIMENSION", .plain ⟨"IdentifiableSubTypes", "PHYSICAL_DIMENSION"⟩),
    ("PORT-PROTOTYPE", .plain ⟨"IdentifiableSubTypes", "PORT_PROTOTYPE"⟩),
    ("PR-PORT-PROTOTYPE", .plain ⟨"IdentifiableSubTypes", "PR_PORT_PROTOTYPE"⟩),
    ("R-PORT-PROTOTYPE", .plain ⟨"IdentifiableSubTypes", "R_PORT_PROTOTYPE"⟩),
    ("RUNNABLE-ENTITY", .plain ⟨"IdentifiableSubTypes", "RUNNABLE_ENTITY"⟩),
    ("SENDER-RECEIVER-INTERFACE", .plain ⟨"IdentifiableSubTypes", "SENDER_RECEIVER_INTERFACE"⟩),
    ("SW-ADDR-METHOD", .plain ⟨"IdentifiableSubTypes", "SW_ADDR_METHOD"⟩),
    ("SW-BASE-TYPE", .plain ⟨"IdentifiableSubTypes", "SW_BASE_TYPE"⟩),
    ("SW-COMPONENT-PROTOTYPE", .plain ⟨"IdentifiableSubTypes", "SW_COMPONENT_PROTOTYPE"⟩),
    ("SWC-IMPLEMENTATION", .plain ⟨"IdentifiableSubTypes", "SWC_IMPLEMENTATION"⟩),
    ("SWC-INTERNAL-BEHAVIOR", .plain ⟨"IdentifiableSubTypes", "SWC_INTERNAL_BEHAVIOR"⟩),
    ("SWC-MODE-MANAGER-ERROR-EVENT", .plain ⟨"IdentifiableSubTypes", "SWC_MODE_MANAGER_ERROR_EVENT"⟩),
    ("SWC-MODE-SWITCH-EVENT", .plain ⟨"IdentifiableSubTypes", "SWC_MODE_SWITCH_EVENT"⟩),
    ("TIMING-EVENT", .plain ⟨"IdentifiableSubTypes", "TIMING_EVENT"⟩),
    ("TRANSFORMER-HARD-ERROR-EVENT", .plain ⟨"IdentifiableSubTypes", "TRANSFORMER_HARD_ERROR_EVENT"⟩),
    ("TRIGGER", .plain ⟨"IdentifiableSubTypes", "TRIGGER"⟩),
    ("UNIT", .plain ⟨"IdentifiableSubTypes", "UNIT"⟩),
    ("VARIABLE-ACCESS", .plain ⟨"IdentifiableSubTypes", "VARIABLE_ACCESS"⟩),
    ("VARIABLE-DATA-PROTOTYPE", .plain ⟨"IdentifiableSubTypes", "VARIABLE_DATA_PROTOTYPE"⟩)]),
  ("IntervalType", [
    ("CLOSED", .plain ⟨"IntervalType", "CLOSED"⟩),
    ("OPEN", .plain ⟨"IntervalType", "OPEN"⟩)]),
  ("KeepWithPrevious", [
    ("KEEP", .plain ⟨"KeepWithPrevious", "KEEP"⟩),
    ("NO-KEEP", .plain ⟨"KeepWithPrevious", "NO_KEEP"⟩)]),
  ("Language", [
    ("AA", .plain ⟨"Language", "AA"⟩),
    ("AB", .plain ⟨"Language", "AB"⟩),
    ("AF", .plain ⟨"Language", "AF"⟩),
    ("AM", .plain ⟨"Language", "AM"⟩),
    ("AR", .plain ⟨"Language", "AR"⟩),
    ("AS", .plain ⟨"Language", "AS"⟩),
    ("AY", .plain ⟨"Language", "AY"⟩),
    ("AZ", .plain ⟨"Language", "AZ"⟩),
    ("BA", .plain ⟨"Language", "BA"⟩),
    ("BE", .plain ⟨"Language", "BE"⟩),
    ("BG", .plain ⟨"Language", "BG"⟩),
    ("BH", .plain ⟨"Language", "BH"⟩),
    ("BI", .plain ⟨"Language", "BI"⟩),
    ("BN", .plain ⟨"Language", "BN"⟩),
    ("BO", .plain ⟨"Language", "BO"⟩),
    ("BR", .plain ⟨"Language", "BR"⟩),
    ("CA", .plain ⟨"Language", "CA"⟩),
    ("CO", .plain ⟨"Language", "CO"⟩),
    ("CS", .plain ⟨"Language", "CS"⟩),
    ("CY", .plain ⟨"Language", "CY"⟩),
    ("DA", .plain ⟨"Language", "DA"⟩),
    ("DE", .plain ⟨"Language", "DE"⟩),
    ("DZ", .plain ⟨"Language", "DZ"⟩),
    ("EL", .plain ⟨"Language", "EL"⟩),
    ("EN", .plain ⟨"Language", "EN"⟩),
    ("EO", .plain ⟨"Language", "EO"⟩),
    ("ES", .plain ⟨"Language", "ES"⟩),
    ("ET", .plain ⟨"Language", "ET"⟩),
    ("EU", .plain ⟨"Language", "EU"⟩),
    ("FA", .plain ⟨"Language", "FA"⟩),
    ("FI", .plain ⟨"Language", "FI"⟩),
    ("FJ", .plain ⟨"Language", "FJ"⟩),
    ("FO", .plain ⟨"Language", "FO"⟩),
    ("FOR-ALL", .plain ⟨"Language", "FOR_ALL"⟩),
    ("FR", .plain ⟨"Language", "FR"⟩),
    ("FY", .plain ⟨"Language", "FY"⟩),
    ("GA", .plain ⟨"Language", "GA"⟩),
    ("GD", .plain ⟨"Language", "GD"⟩),
    ("GL", .plain ⟨"Language", "GL"⟩),
    ("GN", .plain ⟨"Language", "GN"⟩),
    ("GU", .plain ⟨"Language", "GU"⟩),
    ("HA", .plain ⟨"Language", "HA"⟩),
    ("HI", .plain ⟨"Language", "HI"⟩),
    ("HR", .plain ⟨"Language", "HR"⟩),
    ("HU", .plain ⟨"Language", "HU"⟩),
    ("HY", .plain ⟨"Language", "HY"⟩),
    ("IA", .plain ⟨"Language", "IA"⟩),
    ("IE", .plain ⟨"Language", "IE"⟩),
    ("IK", .plain ⟨"Language", "IK"⟩),
    ("IN", .plain ⟨"Language", "IN"⟩),
    ("IS", .plain ⟨"Language", "IS"⟩),
    ("IT", .plain ⟨"Language", "IT"⟩),
    ("IW", .plain ⟨"Language", "IW"⟩),
    ("JA", .plain ⟨"Language", "JA"⟩),
    ("JI", .plain ⟨"Language", "JI"⟩),
    ("JW", .plain ⟨"Language", "JW"⟩),
    ("KA", .plain ⟨"Language", "KA"⟩),
    ("KK", .plain ⟨"Language", "KK"⟩),
    ("KL", .plain ⟨"Language", "KL"⟩),
    ("KM", .plain ⟨"Language", "KM"⟩),
    ("KN", .plain ⟨"Language", "KN"⟩),
    ("KO", .plain ⟨"Language", "KO"⟩),
    ("KS", .plain ⟨"Language", "KS"⟩),
    ("KU", .plain ⟨"Language", "KU"⟩),
    ("KY", .plain ⟨"Language", "KY"⟩),
    ("LA", .plain ⟨"Language", "LA"⟩),
    ("LN", .plain ⟨"Language", "LN"⟩),
    ("LO", .plain ⟨"Language", "LO"⟩),
    ("LT", .plain ⟨"Language", "LT"⟩),
    ("LV", .plain ⟨"Language", "LV"⟩),
    ("MG", .plain ⟨"Language", "MG"⟩),
    ("MI", .plain ⟨"Language", "MI"⟩),
    ("MK", .plain ⟨"Language", "MK"⟩),
    ("ML", .plain ⟨"Language", "ML"⟩),
    ("MN", .plain ⟨"Language", "MN"⟩),
    ("MO", .plain ⟨"Language", "MO"⟩),
    ("MR", .plain ⟨"Language", "MR"⟩),
    ("MS", .plain ⟨"Language", "MS"⟩),
    ("MT", .plain ⟨"Language", "MT"⟩),
    ("MY", .plain ⟨"Language", "MY"⟩),
    ("NA", .plain ⟨"Language", "NA"⟩),
    ("NE", .plain ⟨"Language", "NE"⟩),
    ("NL", .plain ⟨"Language", "NL"⟩),
    ("NO", .plain ⟨"Language", "NO"⟩),
    ("OC", .plain ⟨"Language", "OC"⟩),
    ("OM", .plain ⟨"Language", "OM"⟩),
    ("OR", .plain ⟨"Language", "OR"⟩),
    ("PA", .plain ⟨"Language", "PA"⟩),
    ("PL", .plain ⟨"Language", "PL"⟩),
    ("PS", .plain ⟨"Language", "PS"⟩),
    ("PT", .plain ⟨"Language", "PT"⟩),
    ("QU", .plain ⟨"Language", "QU"⟩),
    ("RM", .plain ⟨"Language", "RM"⟩),
    ("RN", .plain ⟨"Language", "RN"⟩),
    ("RO", .plain ⟨"Language", "RO"⟩),
    ("RU", .plain ⟨"Language", "RU"⟩),
    ("RW", .plain ⟨"Language", "RW"⟩),
    ("SA", .plain ⟨"Language", "SA"⟩),
    ("SD", .plain ⟨"Language", "SD"⟩),
    ("SG", .plain ⟨"Language", "SG"⟩),
    ("SH", .plain ⟨"Language", "SH"⟩),
    ("SI", .plain ⟨"Language", "SI"⟩),
    ("SK", .plain ⟨"Language", "SK"⟩),
    ("SL", .plain ⟨"Language", "SL"⟩),
    ("SM", .plain ⟨"Language", "SM"⟩),
    ("SN", .plain ⟨"Language", "SN"⟩),
    ("SO", .plain ⟨"Language", "SO"⟩),
    ("SQ", .plain ⟨"Language", "SQ"⟩),
    ("SR", .plain ⟨"Language", "SR"⟩),
    ("SS", .plain ⟨"Language", "SS"⟩),
    ("ST", .plain ⟨"Language", "ST"⟩),
    ("SU", .plain ⟨"Language", "SU"⟩),
    ("SV", .plain ⟨"Language", "SV"⟩),
    ("SW", .plain ⟨"Language", "SW"⟩),
    ("TA", .plain ⟨"Language", "TA"⟩),
    ("TE", .plain ⟨"Language", "TE"⟩),
    ("TG", .plain ⟨"Language", "TG"⟩),
    ("TH", .plain ⟨"Language", "TH"⟩),
    ("TI", .plain ⟨"Language", "TI"⟩),
    ("TK", .plain ⟨"Language", "TK"⟩),
    ("TL", .plain ⟨"Language", "TL"⟩),
    ("TN", .plain ⟨"Language", "TN"⟩),
    ("TO", .plain ⟨"Language", "TO"⟩),
    ("TR", .plain ⟨"Language", "TR"⟩),
    ("TS", .plain ⟨"Language", "TS"⟩),
    ("TT", .plain ⟨"Language", "TT"⟩),
    ("TW", .plain ⟨"Language", "TW"⟩),
    ("UK", .plain ⟨"Language", "UK"⟩),
    ("UR", .plain ⟨"Language", "UR"⟩),
    ("UZ", .plain ⟨"Language", "UZ"⟩),
    ("VI", .plain ⟨"Language", "VI"⟩),
    ("VO", .plain ⟨"Language", "VO"⟩),
    ("WO", .plain ⟨"Language", "WO"⟩),
    ("XH", .plain ⟨"Language", "XH"⟩),
    ("YO", .plain ⟨"Language", "YO"⟩),
    ("ZH", .plain ⟨"Language", "ZH"⟩),
    ("ZU", .plain ⟨"Language", "ZU"⟩)]),
  ("ModeActivationKind", [
    ("ON-ENTRY", .plain ⟨"ModeActivationKind", "ON_ENTRY"⟩),
    ("ON-EXIT", .plain ⟨"ModeActivationKind", "ON_EXIT"⟩),
    ("ON-TRANSITION", .plain ⟨"ModeActivationKind", "ON_TRANSITION"⟩)]),
  ("ModeErrorReactionPolicy", [
    ("DEFAULT-MODE", .plain ⟨"ModeErrorReactionPolicy", "DEFAULT_MODE"⟩),
    ("LAST-MODE", .plain ⟨"ModeErrorReactionPolicy", "LAST_MODE"⟩)]),
  ("Monotony", [
    ("DECREASING", .plain ⟨"Monotony", "DECREASING"⟩),
    ("INCREASING", .plain ⟨"Monotony", "INCREASING"⟩),
    ("MONOTONOUS", .plain ⟨"Monotony", "MONOTONOUS"⟩),
    ("NO-MONOTONY", .plain ⟨"Monotony", "NO_MONOTONY"⟩),
    ("STRICTLY-DECREASING", .plain ⟨"Monotony", "STRICTLY_DECREASING"⟩),
    ("STRICTLY-INCREASING", .plain ⟨"Monotony", "STRICTLY_INCREASING"⟩),
    ("STRICT-MONOTONOUS", .plain ⟨"Monotony", "STRICT_MONOTONOUS"⟩)]),
  ("PageBreak", [
    ("BREAK", .plain ⟨"PageBreak", "BREAK"⟩),
    ("NO-BREAK", .plain ⟨"PageBreak", "NO_BREAK"⟩)]),
  ("PageWide", [
    ("NO-PGWIDE", .plain ⟨"PageWide", "NO_PGWIDE"⟩),
    ("PGWIDE", .plain ⟨"PageWide", "PGWIDE"⟩)]),
  ("ReentrancyLevel", [
    ("MULTICORE-REENTRANT", .plain ⟨"ReentrancyLevel", "MULTICORE_REENTRANT"⟩),
    ("NON-REENTRANT", .plain ⟨"ReentrancyLevel", "NON_REENTRANT"⟩),
    ("SINGLE-CORE-REENTRANT", .plain ⟨"ReentrancyLevel", "SINGLE_CORE_REENTRANT"⟩)]),
  ("RteApiReturnValueProvision", [
    ("RETURN-VALUE-PROVIDED", .plain ⟨"RteApiReturnValueProvision", "RETURN_VALUE_PROVIDED"⟩),
    ("NO-RETURN-VALUE-PROVIDED", .plain ⟨"RteApiReturnValueProvision", "NO_RETURN_VALUE_PROVIDED"⟩)]),
  ("ScaleConstraintValidity", [
    ("NOT-AVAILABLE", .plain ⟨"ScaleConstraintValidity", "NOT_AVAILABLE"⟩),
    ("NOT-DEFINED", .plain ⟨"ScaleConstraintValidity", "NOT_DEFINED"⟩),
    ("NOT-VALID", .plain ⟨"ScaleConstraintValidity", "NOT_VALID"⟩),
    ("VALID", .plain ⟨"ScaleConstraintValidity", "VALID"⟩)]),
  ("ServerArgImplPolicy", [
    ("USE-ARGUMENT-TYPE", .plain ⟨"ServerArgImplPolicy", "USE_ARGUMENT_TYPE"⟩),
    ("USE-ARRAY-BASE-TYPE", .plain ⟨"ServerArgImplPolicy", "USE_ARRAY_BASED_TYPE"⟩),
    ("USE-VOID", .plain ⟨"ServerArgImplPolicy", "USE_VOID"⟩)]),
  ("SupportBufferLocking", [
    ("DOES-NOT-SUPPORT-BUFFER-LOCKING", .plain ⟨"SupportBufferLocking", "DOES_NOT_SUPPORT_BUFFER_LOCKING"⟩),
    ("SUPPORTS-BUFFER-LOCKING", .plain ⟨"SupportBufferLocking", "SUPPORTS_BUFFER_LOCKING"⟩)]),
  ("SwCalibrationAccess", [
    ("NOT-ACCESSIBLE", .plain ⟨"SwCalibrationAccess", "NOT_ACCESSIBLE"⟩),
    ("READ-ONLY", .plain ⟨"SwCalibrationAccess", "READ_ONLY"⟩),
    ("READ-WRITE", .plain ⟨"SwCalibrationAccess", "READ_WRITE"⟩)]),
  ("SwImplPolicy", [
    ("CONST", .plain ⟨"SwImplPolicy", "CONST"⟩),
    ("FIXED", .plain ⟨"SwImplPolicy", "FIXED"⟩),
    ("MEASUREMENT-POINT", .plain ⟨"SwImplPolicy", "MEASUREMENT_POINT"⟩),
    ("QUEUED", .plain ⟨"SwImplPolicy", "QUEUED"⟩),
    ("STANDARD", .plain ⟨"SwImplPolicy", "STANDARD"⟩)]),
  ("TransmissionMode", [
    ("CYCLIC", .plain ⟨"TransmissionMode", "CYCLIC"⟩),
    ("CYCLIC-AND-ON-CHANGE", .plain ⟨"TransmissionMode", "CYCLIC_AND_ON_CHANGE"⟩),
    ("TRIGGERED", .plain ⟨"TransmissionMode", "TRIGGERED"⟩)]),
  ("VariableAccessScope", [
    ("COMMUNICATION-INTER-ECU", .plain ⟨"VariableAccessScope", "COMMUNICATION_INTER_ECU"⟩),
    ("COMMUNICATION-INTRA-PARTITION", .plain ⟨"VariableAccessScope", "COMMUNICATION_INTRA_PARTITION"⟩),
    ("INTER-PARTITION-INTRA-ECU", .plain ⟨"VariableAccessScope", "INTER_PARTITION_INTRA_ECU"⟩)])]

/-- `enum_to_xml_map` (enumeration.py 1140-1526). -/
def enumToXmlMap : List (String × List TEntry) := [
  ("ArgumentDirection", [
    .plain "IN",
    .plain "INOUT",
    .plain "OUT"]),
  ("ArrayImplPolicy", [
    .versioned "PAYLOAD-AS-ARRAY" [49, 50, 51],
    .versioned "PAYLOAD-AS-POINTER-TO-ARRAY" [49, 50, 51]]),
  ("ArraySizeHandling", [
    .plain "ALL-INDICES-DIFFERENT-ARRAY-SIZE",
    .plain "ALL-INDICES-SAME-ARRAY-SIZE",
    .plain "INHERITED-FROM-ARRAY-ELEMENT-TYPE-SIZE"]),
  ("ArraySizeSemantics", [
    .plain "FIXED-SIZE",
    .plain "VARIABLE-SIZE"]),
  ("ByteOrder", [
    .plain "MOST-SIGNIFICANT-BYTE-FIRST",
    .plain "MOST-SIGNIFICANT-BYTE-LAST",
    .plain "OPAQUE"]),
  ("CalibrationAxisCategory", [
    .plain "COM-AXIS",
    .plain "CURVE-AXIS",
    .plain "FIX-AXIS",
    .plain "RES-AXIS",
    .plain "STD-AXIS"]),
  ("DataTransformationErrorHandling", [
    .plain "NO-TRANSFORMER-ERROR-HANDLING",
    .plain "TRANSFORMER-ERROR-HANDLING"]),
  ("DataTransformationStatusForwarding", [
    .plain "NO-TRANSFORMER-STATUS-FORWARDING",
    .plain "TRANSFORMER-STATUS-FORWARDING"]),
  ("DataFilterType", [
    .plain "ALWAYS",
    .plain "MASKED-NEW-DIFFERS-MASKED-OLD",
    .plain "MASKED-NEW-DIFFERS-X",
    .plain "MASKED-NEW-EQUALS-X",
    .plain "NEVER",
    .plain "NEW-IS-OUTSIDE",
    .plain "NEW-IS-WITHIN",
    .plain "ONE-EVERY-N"]),
  ("DisplayPresentation", [
    .plain "PRESENTATION-CONTINUOUS",
    .plain "PRESENTATION-DISCRETE"]),
  ("EmphasisFont", [
    .plain "DEFAULT",
    .plain "MONO"]),
  ("EmphasisType", [
    .plain "BOLD",
    .plain "BOLDITALIC",
    .plain "ITALIC",
    .plain "PLAIN"]),
  ("Float", [
    .plain "FLOAT",
    .plain "NO-FLOAT"]),
  ("HandleInvalid", [
    .plain "DONT-INVALIDATE",
    .plain "EXTERNAL-REPLACEMENT",
    .plain "KEEP",
    .plain "REPLACE"]),
  ("HandleOutOfRange", [
    .plain "DEFAULT",
    .plain "EXTERNAL-REPLACEMENT",
    .plain "IGNORE",
    .plain "INVALID",
    .plain "NONE",
    .plain "SATURATE"]),
  ("HandleOutOfRangeStatus", [
    .plain "INDICATE",
    .plain "SILENT"]),
  ("HandleTimeout", [
    .plain "NONE",
    .plain "REPLACE",
    .plain "REPLACE-BY-TIMEOUT-SUBSTITUTION-VALUE"]),
  ("IdentifiableSubTypes", [
    .plain "ABSTRACT-IMPLEMENTATION-DATA-TYPE",
    .plain "ABSTRACT-IMPLEMENTATION-DATA-TYPE-ELEMENT",
    .plain "ABSTRACT-PROVIDED-PORT-PROTOTYPE",
    .plain "ABSTRACT-REQUIRED-PORT-PROTOTYPE",
    .plain "APPLICATION-ARRAY-DATA-TYPE",
    .plain "APPLICATION-ARRAY-ELEMENT",
    .plain "APPLICATION-COMPOSITE-DATA-TYPE",
    .plain "APPLICATION-COMPOSITE-ELEMENT-DATA-PROTOTYPE",
    .plain "APPLICATION-DATA-TYPE",
    .plain "APPLICATION-DEFERRED-DATA-TYPE",
    .plain "APPLICATION-ERROR",
    .plain "APPLICATION-PRIMITIVE-DATA-TYPE",
    .plain "APPLICATION-RECORD-DATA-TYPE",
    .plain "APPLICATION-RECORD-ELEMENT",
    .plain "APPLICATION-SW-COMPONENT-TYPE",
    .plain "AR-PACKAGE",
    .plain "ARGUMENT-DATA-PROTOTYPE",
    .plain "ASYNCHRONOUS-SERVER-CALL-POINT",
    .plain "ASYNCHRONOUS-SERVER-CALL-RESULT-POINT",
    .plain "ASYNCHRONOUS-SERVER-CALL-RETURNS-EVENT",
    .plain "AUTOSAR-DATA-PROTOTYPE",
    .plain "AUTOSAR-DATA-TYPE",
    .plain "BACKGROUND-EVENT",
    .plain "BSW-MODULE-ENTRY",
    .plain "CLIENT-SERVER-INTERFACE",
    .plain "CLIENT-SERVER-OPERATION",
    .plain "COMPOSITION-SW-COMPONENT-TYPE",
    .plain "COMPU-METHOD",
    .plain "CONSTANT-SPECIFICATION",
    .plain "DATA-CONSTR",
    .plain "DATA-PROTOTYPE",
    .plain "DATA-RECEIVE-ERROR-EVENT",
    .plain "DATA-RECEIVED-EVENT",
    .plain "DATA-SEND-COMPLETED-EVENT",
    .plain "DATA-TYPE-MAPPING-SET",
    .plain "DATA-WRITE-COMPLETED-EVENT",
    .plain "E-2-E-PROFILE-COMPATIBILITY-PROPS",
    .plain "EXCLUSIVE-AREA",
    .plain "EXCLUSIVE-AREA-NESTING-ORDER",
    .plain "EXTERNAL-TRIGGER-OCCURRED-EVENT",
    .plain "IMPLEMENTATION-DATA-TYPE",
    .plain "IMPLEMENTATION-DATA-TYPE-ELEMENT",
    .plain "INIT-EVENT",
    .plain "INTERNAL-TRIGGER-OCCURRED-EVENT",
    .plain "INTERNAL-TRIGGERING-POINT",
    .plain "MODE-DECLARATION",
    .plain "MODE-DECLARATION-GROUP",
    .plain "MODE-DECLARATION-GROUP-PROTOTYPE",
    .plain "MODE-SWITCH-INTERFACE",
    .plain "MODE-SWITCH-POINT",
    .plain "MODE-SWITCHED-ACK-EVENT",
    .plain "NV-DATA-INTERFACE",
    .plain "OPERATION-INVOKED-EVENT",
    .plain "P-PORT-PROTOTYPE",
    .plain "PARAMETER-DATA-PROTOTYPE",
    .plain "PARAMETER-INTERFACE",
    .plain "PHYSICAL-DIMENSION",
    .plain "PORT-PROTOTYPE",
    .plain "PR-PORT-PROTOTYPE",
    .plain "R-PORT-PROTOTYPE",
    .plain "RUNNABLE-ENTITY",
    .plain "SENDER-RECEIVER-INTERFACE",
    .plain "SW-ADDR-METHOD",
    .plain "SW-BASE-TYPE",
    .plain "SW-COMPONENT-PROTOTYPE",
    .plain "SWC-IMPLEMENTATION",
    .plain "SWC-INTERNAL-BEHAVIOR",
    .plain "SWC-MODE-MANAGER-ERROR-EVENT",
    .plain "SWC-MODE-SWITCH-EVENT",
    .plain "TIMING-EVENT",
    .plain "TRANSFORMER-HARD-ERROR-EVENT",
    .plain "TRIGGER",
    .plain "UNIT",
    .plain "VARIABLE-ACCESS",
    .plain "VARIABLE-DATA-PROTOTYPE"]),
  ("IntervalType", [
    .plain "CLOSED",
    .plain "OPEN"]),
  ("KeepWithPrevious", [
    .plain "KEEP",
    .plain "NO-KEEP"]),
  ("Language", [
    .plain "AA",
    .plain "AB",
    .plain "AF",
    .plain "AM",
    .plain "AR",
    .plain "AS",
    .plain "AY",
    .plain "AZ",
    .plain "BA",
    .plain "BE",
    .plain "BG",
    .plain "BH",
    .plain "BI",
    .plain "BN",
    .plain "BO",
    .plain "BR",
    .plain "CA",
    .plain "CO",
    .plain "CS",
    .plain "CY",
    .plain "DA",
    .plain "DE",
    .plain "DZ",
    .plain "EL",
    .plain "EN",
    .plain "EO",
    .plain "ES",
    .plain "ET",
    .plain "EU",
    .plain "FA",
    .plain "FI",
    .plain "FJ",
    .plain "FO",
    .plain "FOR-ALL",
    .plain "FR",
    .plain "FY",
    .plain "GA",
    .plain "GD",
    .plain "GL",
    .plain "GN",
    .plain "GU",
    .plain "HA",
    .plain "HI",
    .plain "HR",
    .plain "HU",
    .plain "HY",
    .plain "IA",
    .plain "IE",
    .plain "IK",
    .plain "IN",
    .plain "IS",
    .plain "IT",
    .plain "IW",
    .plain "JA",
    .plain "JI",
    .plain "JW",
    .plain "KA",
    .plain "KK",
    .plain "KL",
    .plain "KM",
    .plain "KN",
    .plain "KO",
    .plain "KS",
    .plain "KU",
    .plain "KY",
    .plain "LA",
    .plain "LN",
    .plain "LO",
    .plain "LT",
    .plain "LV",
    .plain "MG",
    .plain "MI",
    .plain "MK",
    .plain "ML",
    .plain "MN",
    .plain "MO",
    .plain "MR",
    .plain "MS",
    .plain "MT",
    .plain "MY",
    .plain "NA",
    .plain "NE",
    .plain "NL",
    .plain "NO",
    .plain "OC",
    .plain "OM",
    .plain "OR",
    .plain "PA",
    .plain "PL",
    .plain "PS",
    .plain "PT",
    .plain "QU",
    .plain "RM",
    .plain "RN",
    .plain "RO",
    .plain "RU",
    .plain "RW",
    .plain "SA",
    .plain "SD",
    .plain "SG",
    .plain "SH",
    .plain "SI",
    .plain "SK",
    .plain "SL",
    .plain "SM",
    .plain "SN",
    .plain "SO",
    .plain "SQ",
    .plain "SR",
    .plain "SS",
    .plain "ST",
    .plain "SU",
    .plain "SV",
    .plain "SW",
    .plain "TA",
    .plain "TE",
    .plain "TG",
    .plain "TH",
    .plain "TI",
    .plain "TK",
    .plain "TL",
    .plain "TN",
    .plain "TO",
    .plain "TR",
    .plain "TS",
    .plain "TT",
    .plain "TW",
    .plain "UK",
    .plain "UR",
    .plain "UZ",
    .plain "VI",
    .plain "VO",
    .plain "WO",
    .plain "XH",
    .plain "YO",
    .plain "ZH",
    .plain "ZU"]),
  ("ModeActivationKind", [
    .plain "ON-ENTRY",
    .plain "ON-EXIT",
    .plain "ON-TRANSITION"]),
  ("ModeErrorReactionPolicy", [
    .plain "DEFAULT-MODE",
    .plain "LAST-MODE"]),
  ("Monotony", [
    .plain "DECREASING",
    .plain "INCREASING",
    .plain "MONOTONOUS",
    .plain "NO-MONOTONY",
    .plain "STRICTLY-DECREASING",
    .plain "STRICTLY-INCREASING",
    .plain "STRICT-MONOTONOUS"]),
  ("PageBreak", [
    .plain "BREAK",
    .plain "NO-BREAK"]),
  ("PageWide", [
    .plain "NO-PGWIDE",
    .plain "PGWIDE"]),
  ("ReentrancyLevel", [
    .plain "MULTICORE-REENTRANT",
    .plain "NON-REENTRANT",
    .plain "SINGLE-CORE-REENTRANT"]),
  ("RteApiReturnValueProvision", [
    .plain "RETURN-VALUE-PROVIDED",
    .plain "NO-RETURN-VALUE-PROVIDED"]),
  ("ScaleConstraintValidity", [
    .plain "NOT-AVAILABLE",
    .plain "NOT-DEFINED",
    .plain "NOT-VALID",
    .plain "VALID"]),
  ("ServerArgImplPolicy", [
    .plain "USE-ARGUMENT-TYPE",
    .plain "USE-ARRAY-BASE-TYPE",
    .plain "USE-VOID"]),
  ("SupportBufferLocking", [
    .plain "DOES-NOT-SUPPORT-BUFFER-LOCKING",
    .plain "SUPPORTS-BUFFER-LOCKING"]),
  ("SwCalibrationAccess", [
    .plain "NOT-ACCESSIBLE",
    .plain "READ-ONLY",
    .plain "READ-WRITE"]),
  ("SwImplPolicy", [
    .plain "CONST",
    .plain "FIXED",
    .plain "MEASUREMENT-POINT",
    .plain "QUEUED",
    .plain "STANDARD"]),
  ("TransmissionMode", [
    .plain "CYCLIC",
    .plain "CYCLIC-AND-ON-CHANGE",
    .plain "TRIGGERED"]),
  ("VariableAccessScope", [
    .plain "COMMUNICATION-INTER-ECU",
    .plain "COMMUNICATION-INTRA-PARTITION",
    .plain "INTER-PARTITION-INTRA-ECU"])]

/-- `str_to_enum_map["PackageRole"]` (enumeration.py 1545-1568). -/
def strToPackageRoleMap : List (String × String) := [
  ("APPLICATION_DATA_TYPE", "APPLICATION_DATA_TYPE"),
  ("ApplicationDataType", "APPLICATION_DATA_TYPE"),
  ("BASE_TYPE", "BASE_TYPE"),
  ("BaseType", "BASE_TYPE"),
  ("COMPONENT_TYPE", "COMPONENT_TYPE"),
  ("ComponentType", "COMPONENT_TYPE"),
  ("COMPU_METHOD", "COMPU_METHOD"),
  ("CompuMethod", "COMPU_METHOD"),
  ("DATA_CONSTRAINT", "DATA_CONSTRAINT"),
  ("DataConstraint", "DATA_CONSTRAINT"),
  ("IMPLEMENTATION_DATA_TYPE", "IMPLEMENTATION_DATA_TYPE"),
  ("ImplementationDataType", "IMPLEMENTATION_DATA_TYPE"),
  ("MODE_DECLARATION", "MODE_DECLARATION"),
  ("ModeDeclaration", "MODE_DECLARATION"),
  ("PORT_INTERFACE", "PORT_INTERFACE"),
  ("PortInterface", "PORT_INTERFACE"),
  ("Unit", "UNIT"),
  ("UNIT", "UNIT"),
  ("CONSTANT", "CONSTANT"),
  ("Constant", "CONSTANT")]

end Verif.Enums
