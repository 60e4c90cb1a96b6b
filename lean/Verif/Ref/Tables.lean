/-
Reference classes, transcribed mechanically from `src/autosar/xml/reference.py`.
-/
namespace Verif.Ref

/-- What a reference class defines: the set returned by `accepted_sub_types` (member names
of `IdentifiableSubTypes`, no repetitions) and the default of its `dest` parameter
(`none`: the inherited constructor with default `None`, base.py 172-174). -/
structure RefClass where
  accepted : List String
  default : Option String
deriving DecidableEq, Repr

/-- All classes of reference.py. -/
def refClasses : List (String × RefClass) := [
  -- lines 9-22
  ("SwBaseTypeRef", ⟨["SW_BASE_TYPE"], some "SW_BASE_TYPE"⟩),
  -- lines 25-38
  ("PackageRef", ⟨["AR_PACKAGE"], some "AR_PACKAGE"⟩),
  -- lines 41-54
  ("CompuMethodRef", ⟨["COMPU_METHOD"], some "COMPU_METHOD"⟩),
  -- lines 57-70
  ("FunctionPtrSignatureRef", ⟨["BSW_MODULE_ENTRY"], some "BSW_MODULE_ENTRY"⟩),
  -- lines 73-86
  ("ImplementationDataTypeRef", ⟨["IMPLEMENTATION_DATA_TYPE"], some "IMPLEMENTATION_DATA_TYPE"⟩),
  -- lines 89-102
  ("SwAddrMethodRef", ⟨["SW_ADDR_METHOD"], some "SW_ADDR_METHOD"⟩),
  -- lines 105-118
  ("DataConstraintRef", ⟨["DATA_CONSTR"], some "DATA_CONSTR"⟩),
  -- lines 121-134
  ("PhysicalDimensionRef", ⟨["PHYSICAL_DIMENSION"], some "PHYSICAL_DIMENSION"⟩),
  -- lines 137-150
  ("UnitRef", ⟨["UNIT"], some "UNIT"⟩),
  -- lines 153-166
  ("IndexDataTypeRef", ⟨["APPLICATION_PRIMITIVE_DATA_TYPE"], some "APPLICATION_PRIMITIVE_DATA_TYPE"⟩),
  -- lines 169-182
  ("ApplicationDataTypeRef", ⟨["APPLICATION_ARRAY_DATA_TYPE", "APPLICATION_COMPOSITE_DATA_TYPE", "APPLICATION_DATA_TYPE", "APPLICATION_DEFERRED_DATA_TYPE", "APPLICATION_PRIMITIVE_DATA_TYPE", "APPLICATION_RECORD_DATA_TYPE"], none⟩),
  -- lines 185-196
  ("ApplicationCompositeElementDataPrototypeRef", ⟨["APPLICATION_ARRAY_ELEMENT", "APPLICATION_COMPOSITE_ELEMENT_DATA_PROTOTYPE", "APPLICATION_RECORD_ELEMENT"], none⟩),
  -- lines 199-215
  ("AutosarDataTypeRef", ⟨["ABSTRACT_IMPLEMENTATION_DATA_TYPE", "APPLICATION_ARRAY_DATA_TYPE", "APPLICATION_COMPOSITE_DATA_TYPE", "APPLICATION_DATA_TYPE", "APPLICATION_DEFERRED_DATA_TYPE", "APPLICATION_PRIMITIVE_DATA_TYPE", "APPLICATION_RECORD_DATA_TYPE", "AUTOSAR_DATA_TYPE", "IMPLEMENTATION_DATA_TYPE"], none⟩),
  -- lines 218-231
  ("ConstantRef", ⟨["CONSTANT_SPECIFICATION"], some "CONSTANT_SPECIFICATION"⟩),
  -- lines 234-246
  ("VariableDataPrototypeRef", ⟨["VARIABLE_DATA_PROTOTYPE"], some "VARIABLE_DATA_PROTOTYPE"⟩),
  -- lines 249-261
  ("ParameterDataPrototypeRef", ⟨["PARAMETER_DATA_PROTOTYPE"], some "PARAMETER_DATA_PROTOTYPE"⟩),
  -- lines 264-277
  ("ApplicationErrorRef", ⟨["APPLICATION_ERROR"], some "APPLICATION_ERROR"⟩),
  -- lines 280-297
  ("ModeDeclarationRef", ⟨["MODE_DECLARATION"], some "MODE_DECLARATION"⟩),
  -- lines 300-313
  ("ModeDeclarationGroupRef", ⟨["MODE_DECLARATION_GROUP"], some "MODE_DECLARATION_GROUP"⟩),
  -- lines 316-332
  ("ModeDeclarationGroupPrototypeRef", ⟨["MODE_DECLARATION_GROUP_PROTOTYPE"], some "MODE_DECLARATION_GROUP_PROTOTYPE"⟩),
  -- lines 335-345
  ("AutosarDataPrototypeRef", ⟨["ARGUMENT_DATA_PROTOTYPE", "PARAMETER_DATA_PROTOTYPE", "VARIABLE_DATA_PROTOTYPE"], none⟩),
  -- lines 348-361
  ("E2EProfileCompatibilityPropsRef", ⟨["E2E_PROFILE_COMPATIBILITY_PROPS"], some "E2E_PROFILE_COMPATIBILITY_PROPS"⟩),
  -- lines 364-377
  ("ClientServerOperationRef", ⟨["CLIENT_SERVER_OPERATION"], some "CLIENT_SERVER_OPERATION"⟩),
  -- lines 380-413
  ("PortPrototypeRef", ⟨["ABSTRACT_PROVIDED_PORT_PROTOTYPE", "ABSTRACT_REQUIRED_PORT_PROTOTYPE", "P_PORT_PROTOTYPE", "PR_PORT_PROTOTYPE", "R_PORT_PROTOTYPE"], none⟩),
  -- lines 416-425
  ("AbstractImplementationDataTypeElementRef", ⟨["ABSTRACT_IMPLEMENTATION_DATA_TYPE_ELEMENT", "IMPLEMENTATION_DATA_TYPE_ELEMENT"], none⟩),
  -- lines 428-444
  ("DataPrototypeRef", ⟨["APPLICATION_ARRAY_ELEMENT", "APPLICATION_COMPOSITE_ELEMENT_DATA_PROTOTYPE", "APPLICATION_RECORD_ELEMENT", "ARGUMENT_DATA_PROTOTYPE", "AUTOSAR_DATA_PROTOTYPE", "DATA_PROTOTYPE", "PARAMETER_DATA_PROTOTYPE", "VARIABLE_DATA_PROTOTYPE"], none⟩),
  -- lines 447-462
  ("PortInterfaceRef", ⟨["CLIENT_SERVER_INTERFACE", "MODE_SWITCH_INTERFACE", "NV_DATA_INTERFACE", "PARAMETER_INTERFACE", "SENDER_RECEIVER_INTERFACE"], none⟩),
  -- lines 465-477
  ("SwComponentTypeRef", ⟨["APPLICATION_SW_COMPONENT_TYPE", "COMPOSITION_SW_COMPONENT_TYPE"], none⟩),
  -- lines 480-493
  ("SwComponentPrototypeRef", ⟨["SW_COMPONENT_PROTOTYPE"], some "SW_COMPONENT_PROTOTYPE"⟩),
  -- lines 496-509
  ("SwcInternalBehaviorRef", ⟨["SWC_INTERNAL_BEHAVIOR"], some "SWC_INTERNAL_BEHAVIOR"⟩),
  -- lines 512-525
  ("SwcImplementationRef", ⟨["SWC_IMPLEMENTATION"], some "SWC_IMPLEMENTATION"⟩),
  -- lines 528-541
  ("ExclusiveAreaRef", ⟨["EXCLUSIVE_AREA"], some "EXCLUSIVE_AREA"⟩),
  -- lines 544-557
  ("ExclusiveAreaNestingOrderRef", ⟨["EXCLUSIVE_AREA_NESTING_ORDER"], some "EXCLUSIVE_AREA_NESTING_ORDER"⟩),
  -- lines 560-570
  ("AbstractRequiredPortPrototypeRef", ⟨["ABSTRACT_REQUIRED_PORT_PROTOTYPE", "PR_PORT_PROTOTYPE", "R_PORT_PROTOTYPE"], none⟩),
  -- lines 573-583
  ("AbstractProvidedPortPrototypeRef", ⟨["ABSTRACT_PROVIDED_PORT_PROTOTYPE", "P_PORT_PROTOTYPE", "PR_PORT_PROTOTYPE"], none⟩),
  -- lines 586-599
  ("RunnableEntityRef", ⟨["RUNNABLE_ENTITY"], some "RUNNABLE_ENTITY"⟩),
  -- lines 602-615
  ("VariableAccessRef", ⟨["VARIABLE_ACCESS"], some "VARIABLE_ACCESS"⟩),
  -- lines 618-631
  ("ModeSwitchPointRef", ⟨["MODE_SWITCH_POINT"], some "MODE_SWITCH_POINT"⟩),
  -- lines 634-647
  ("AsynchronousServerCallPointRef", ⟨["ASYNCHRONOUS_SERVER_CALL_POINT"], some "ASYNCHRONOUS_SERVER_CALL_POINT"⟩),
  -- lines 650-663
  ("AsynchronousServerCallResultPointRef", ⟨["ASYNCHRONOUS_SERVER_CALL_RESULT_POINT"], some "ASYNCHRONOUS_SERVER_CALL_RESULT_POINT"⟩),
  -- lines 666-679
  ("TriggerRef", ⟨["TRIGGER"], some "TRIGGER"⟩),
  -- lines 682-695
  ("InternalTriggeringPointRef", ⟨["INTERNAL_TRIGGERING_POINT"], some "INTERNAL_TRIGGERING_POINT"⟩),
  -- lines 698-721
  ("RteEventRef", ⟨["ASYNCHRONOUS_SERVER_CALL_RETURNS_EVENT", "BACKGROUND_EVENT", "DATA_RECEIVE_ERROR_EVENT", "DATA_RECEIVED_EVENT", "DATA_SEND_COMPLETED_EVENT", "DATA_WRITE_COMPLETED_EVENT", "EXTERNAL_TRIGGER_OCCURRED_EVENT", "INIT_EVENT", "INTERNAL_TRIGGER_OCCURRED_EVENT", "MODE_SWITCHED_ACK_EVENT", "OPERATION_INVOKED_EVENT", "SWC_MODE_MANAGER_ERROR_EVENT", "SWC_MODE_SWITCH_EVENT", "TIMING_EVENT", "TRANSFORMER_HARD_ERROR_EVENT"], none⟩),
  -- lines 724-737
  ("DataTypeMappingSetRef", ⟨["DATA_TYPE_MAPPING_SET"], some "DATA_TYPE_MAPPING_SET"⟩),
  -- lines 740-753
  ("ArgumentDataPrototypeRef", ⟨["ARGUMENT_DATA_PROTOTYPE"], some "ARGUMENT_DATA_PROTOTYPE"⟩),
  -- lines 756-769
  ("ApplicationArrayElementRef", ⟨["APPLICATION_ARRAY_ELEMENT"], some "APPLICATION_ARRAY_ELEMENT"⟩),
  -- lines 772-785
  ("ApplicationRecordElementRef", ⟨["APPLICATION_RECORD_ELEMENT"], some "APPLICATION_RECORD_ELEMENT"⟩)]

end Verif.Ref
